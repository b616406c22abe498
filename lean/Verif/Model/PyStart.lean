import Verif.Model.PySession

/-!
# Model of the Python package: construction of server and client (`support/python/trax/server.py`, `client.py`)

The streams are given: which descriptors or sockets they use is the part of `Model/Environment` and `Model/Sockets`. Loggers only matter here in so far as
`ctypes` does not accept `None` where a function is expected.
-/

namespace Trax.Py

/-- The arguments of `Server` (`support/python/trax/server.py` 46), without the log; `metadata=None` is like an empty dictionary. -/
structure ServerArgs where
  regions : List Text
  images : List Text
  channels : List Text
  name : Text
  description : Text
  family : Text
  custom : Dict
  multiobject : Bool
  deriving DecidableEq, Repr

/-- The arguments of `trax_metadata_create` (`support/python/trax/server.py` 63–65), which are evaluated from left to right. -/
def ServerArgs.encoded (a : ServerArgs) : Except Exc ((Nat × Nat × Nat) × Str × Str × Str) :=
  (encodeList regionEncode a.regions 0).bind fun r => (encodeList imageEncode a.images 0).bind fun i => (encodeList channelEncode a.channels 0).bind fun c =>
    (toC a.name).bind fun n => (toC a.description).bind fun d => (toC a.family).bind fun f => .ok ((r, i, c), n, d, f)

/-- The record that the server introduces (`support/python/trax/server.py` 58–70). -/
def ServerArgs.metadata (a : ServerArgs) : Outcome (Except Exc Metadata) :=
  match a.encoded with
  | .error e => .ok (.error e)
  | .ok ((r, i, c), n, d, f) =>
    (Metadata.create (.ofNat r) (.ofNat i) (.ofNat c) (some n) (some d) (some f) (if a.multiobject then 1 else 0)).map fun m =>
      (propSetAll m.custom a.custom).map fun custom => { m with custom }

/-- `Server.__init__` (`support/python/trax/server.py` 46–86). A handle that is not alive has no attribute `reference` (82). -/
def serverInit (junk : UInt32) (a : ServerArgs) (stream : Stream) : Outcome (Except Exc Handle) :=
  a.metadata.bind fun m => match m with
    | .error e => .ok (.error e)
    | .ok m => (Handle.serverSetup junk m stream 0).map fun h => if h.isAlive then .ok h else .error .attribute

/-- An entry of the dictionary `_custom` of a client. -/
inductive CustomValue where
  | text (t : Text)
  | flag (b : Bool)
  deriving DecidableEq, Repr

/-- What a `Client` knows of the tracker (`support/python/trax/client.py` 86–104). -/
structure ClientInfo where
  regions : List Text
  images : List Text
  channels : List Text
  name : Text
  family : Text
  description : Text
  custom : List (Text × CustomValue)
  deriving DecidableEq, Repr

/-- `dict[k] = v`. -/
def setItem (d : List (Text × CustomValue)) (k : Text) (v : CustomValue) : List (Text × CustomValue) :=
  if d.any fun e => e.1 = k then d.map fun e => if e.1 = k then (k, v) else e else d ++ [(k, v)]

/-- `x.decode("utf-8") if not x is None else ""` (`support/python/trax/client.py` 90–95). -/
def textOrEmpty : Option Str → Except Exc Text
  | none => .ok []
  | some s => fromC s

/-- The attributes of a `Client` (`support/python/trax/client.py` 84–104). -/
def clientInfo (h : Handle) : Except Exc ClientInfo :=
  (textOrEmpty h.metadata.name).bind fun name => (textOrEmpty h.metadata.family).bind fun family => (textOrEmpty h.metadata.description).bind fun description =>
    .ok ⟨regionDecodeList h.metadata.regions.toNat, imageDecodeList h.metadata.images.toNat, channelDecodeList h.metadata.channels.toNat, name, family, description,
      setItem ((propDict h.metadata.custom).map fun e => (e.1, .text e.2)) t!"multiobject" (.flag (((h.getParameter false 5).2.getD 0) ≠ 0))⟩

/-- `Client.__init__` (`support/python/trax/client.py` 30–104) over a stream; `log` tells whether there is a logger. Without, `None` is passed for a function (48–50). -/
def clientInit (log : Bool) (stream : Stream) : Outcome (Except Exc (ClientInfo × Handle)) :=
  if log = false then .ok (.error .argument)
  else (Handle.clientSetup stream).map fun h => match h with
    | none => .error .trax
    | some h => if h.isAlive then (clientInfo h).map fun info => (info, h) else .error .attribute

/-- `Client.get` (`support/python/trax/client.py` 155–166). -/
def ClientInfo.get (i : ClientInfo) (k : Text) : Option CustomValue := (i.custom.find? fun e => e.1 = k).map Prod.snd

end Trax.Py
