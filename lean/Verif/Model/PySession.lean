import Verif.Model.Python
import Verif.Model.Handle

/-!
# Model of the Python package: server and client (`support/python/trax/server.py`, `client.py`)

Images and regions of a program are the values that their objects refer to (`Model/PyValues` makes them of numbers and arrays). A dictionary of images
is the list of its entries. The logger is not modelled here, nor the time that is measured; a program without logger is never interrupted.
An exception `TraxException` is not told apart by its text, except for the reason with which the server ended the session.
-/

namespace Trax.Py

/-- The channels, in the order of the loops (`support/python/trax/__init__.py` 316, 355). -/
def channelOrder : List Text := [t!"color", t!"depth", t!"ir"]

/-- The loop of `wrap_images` (`support/python/trax/__init__.py` 358–362). -/
def wrapImagesLoop (images : List (Text × Image)) : List Text → ImageList → Outcome (Except Exc ImageList)
  | [], l => .ok (.ok l)
  | channel :: rest, l => match images.find? fun e => e.1 = channel with
    | none => wrapImagesLoop images rest l
    | some (_, img) => match channelEncode channel with
      | .error e => .ok (.error e)
      | .ok code => (l.set (some img) code).bind fun l => wrapImagesLoop images rest l

/-- `wrap_images` (`support/python/trax/__init__.py` 347–364). -/
def wrapImages (images : List (Text × Image)) : Outcome (Except Exc ImageList) := wrapImagesLoop images channelOrder ImageList.create

/-- The loop of `wrap_objects` (`support/python/trax/__init__.py` 376–379) from index `i` on. -/
def wrapObjectsLoop (env : Env) : List (Region × Dict) → Nat → ObjList → Outcome (Except Exc ObjList)
  | [], _, l => .ok (.ok l)
  | (region, properties) :: rest, i, l => match propNew properties with
    | .error e => .ok (.error e)
    | .ok p => (ObjList.set env.legacy env.fresh l i (some region)).bind fun l => match l.properties i with
      | none => .ub
      | some q => wrapObjectsLoop env rest (i + 1) (l.setProperties i (p.append q false))

/-- `wrap_objects` (`support/python/trax/__init__.py` 366–381). -/
def wrapObjects (env : Env) (objects : List (Region × Dict)) : Outcome (Except Exc ObjList) :=
  wrapObjectsLoop env objects 0 (ObjList.create objects.length)

/-- The loop of `wrap_image_list` (`support/python/trax/__init__.py` 319–323). -/
def wrapImageListLoop (l : ImageList) : List Text → Outcome (Except Exc (List (Text × Image)))
  | [] => .ok (.ok [])
  | channel :: rest => match channelEncode channel with
    | .error e => .ok (.error e)
    | .ok code => (l.get code).bind fun img => match img with
      | none => wrapImageListLoop l rest
      | some img => (wrapImageListLoop l rest).map fun r => r.map ((channel, img) :: ·)

/-- `wrap_image_list` (`support/python/trax/__init__.py` 308–325); a NULL list is dereferenced. -/
def wrapImageList : Option ImageList → Outcome (Except Exc (List (Text × Image)))
  | none => .ub
  | some l => wrapImageListLoop l channelOrder

/-- The loop of `wrap_object_list` (`support/python/trax/__init__.py` 339–343). `Region.wrap` (`support/python/trax/region.py` 43–53) of NULL is `None`. -/
def wrapObjectListLoop (env : Env) (l : ObjList) : Nat → Nat → Outcome (List (Option Region × Dict))
  | _, 0 => .ok []
  | i, n + 1 => match l.properties i with
    | none => .ub
    | some p => (Region.clone env.legacy env.fresh (l.get i)).bind fun r => (wrapObjectListLoop env l (i + 1) n).map ((r, propDict p) :: ·)

/-- `wrap_object_list` (`support/python/trax/__init__.py` 327–344); a NULL list is dereferenced. -/
def wrapObjectList (env : Env) : Option ObjList → Outcome (List (Option Region × Dict))
  | none => .ub
  | some l => wrapObjectListLoop env l 0 l.count

/-! ## Server -/

/-- `Request` (`support/python/trax/server.py` 26–34): the type is the name of the status. -/
structure Request where
  type : Text
  images : Option (List (Text × Image))
  objects : Option (List (Option Region × Dict))
  properties : Properties

/-- The rest of `Server.wait` (`support/python/trax/server.py` 100–125) after the library has returned. -/
def serverRequest (env : Env) (r : Handle.WaitResult) : Outcome (Except Exc Request) :=
  let properties := r.props.getD Properties.create
  let status := statusDecode r.ret
  if status = some t!"quit" then .ok (.ok ⟨t!"quit", none, none, properties⟩)
  else if status = some t!"initialize" then
    (wrapImageList r.images).bind fun images => match images with
      | .error e => .ok (.error e)
      | .ok images => (wrapObjectList env r.objects).map fun objects => .ok ⟨t!"initialize", some images, some objects, properties⟩
  else if status = some t!"frame" then
    (wrapImageList r.images).bind fun images => match images with
      | .error e => .ok (.error e)
      | .ok images => match r.objects with
        | none => .ok (.ok ⟨t!"frame", some images, none, properties⟩)
        | some l => (wrapObjectList env (some l)).map fun objects => .ok ⟨t!"frame", some images, some objects, properties⟩
  else .ok (.error .trax)

/-- `Server.wait` (`support/python/trax/server.py` 88–125); the outer `none`: not finished after reading `fuel` messages. -/
def serverWait (env : Env) (fuel : Nat) (h : Handle) : Option (Outcome (Except Exc Request × Handle)) :=
  (Handle.serverWaitMot env fuel h (some Properties.create)).map fun o => o.bind fun r => (serverRequest env r).map fun request => (request, r.handle)

/-- `Server.status` (`support/python/trax/server.py` 127–146) of a list. The properties are passed as a third argument to `trax_server_reply_mot`
(`support/python/trax/_ctypes.py` 788–791, 1474–1475), which has two parameters (`include/trax.h` 300); a C function does not see it. -/
def serverStatus (env : Env) (h : Handle) (objects : List (Region × Dict)) (properties : Dict) : Outcome (Except Exc Unit × Handle) :=
  match propNew properties with
  | .error e => .ok (.error e, h)
  | .ok _ => (wrapObjects env objects).bind fun tobjects => match tobjects with
    | .error e => .ok (.error e, h)
    | .ok tobjects => (Handle.serverReplyMot h tobjects).map fun (ret, h) =>
      (if statusDecode ret = some t!"error" then .error .trax else .ok (), h)

/-- A `Server` object: its handle, or what was written when the handle was cleaned up. -/
inductive ServerState where
  | running (h : Handle)
  | ended (out : Writer)

/-- `Server.quit` (`support/python/trax/server.py` 160–174). The last line releases the handle (`support/python/trax/__init__.py` 296–306). -/
def serverQuit (reason : Option Text) : ServerState → Except Exc Unit × ServerState
  | .ended out => (.error .attribute, .ended out)
  | .running h =>
    match (match reason with | none => .ok none | some t => (toC t).map some : Except Exc (Option Str)) with
    | .error e => (.error e, .running h)
    | .ok reason =>
      let (ret, h) := h.terminate reason
      if statusDecode ret = some t!"error" then (.error .trax, .running h) else (.ok (), .ended h.cleanup.2)

/-- `Server.__exit__` (`support/python/trax/server.py` 152–158): `failure` is the text of the exception that left the block. -/
def serverExit (failure : Option Text) (s : ServerState) : Except Exc Unit × ServerState := serverQuit failure s

/-! ## Client -/

/-- What a call of the client raises. -/
inductive Failure where
  | exc (e : Exc)
  /-- the server has ended the session, with a reason or without -/
  | ended (reason : Option Text)
  deriving DecidableEq, Repr

/-- The first half of `Client.initialize` and `Client.frame` (`support/python/trax/client.py` 177–190, 236–248): `objects` of a frame can be
`None`, the default, whose length cannot be taken. -/
def clientSend (env : Env) (start : Bool) (h : Handle) (images : List (Text × Image)) (objects : Option (List (Region × Dict))) (properties : Dict) :
    Outcome (Except Exc Unit × Handle) :=
  (wrapImages images).bind fun timage => match timage, objects with
    | .error e, _ => .ok (.error e, h)
    | .ok _, none => .ok (.error .type, h)
    | .ok timage, some objects => (wrapObjects env objects).bind fun tobjects => match tobjects, propNew properties with
      | .error e, _ => .ok (.error e, h)
      | .ok _, .error e => .ok (.error e, h)
      | .ok tobjects, .ok tproperties =>
        (if start then Handle.clientInitialize env h timage tobjects (some tproperties) else Handle.clientFrame env h timage (some tobjects) (some tproperties)).map fun (ret, h) =>
          (if statusDecode ret = some t!"error" then .error .trax else .ok (), h)

/-- The second half of `Client.initialize` and `Client.frame` (`support/python/trax/client.py` 192–219, 250–274). -/
def clientReceive (env : Env) (h : Handle) : Outcome (Except Failure (List (Option Region × Dict)) × Handle) :=
  (Handle.clientWait env h (some Properties.create)).bind fun r =>
    let status := statusDecode r.ret
    if status = some t!"error" then .ok (.error (.exc .trax), r.handle)
    else if status = some t!"quit" then
      match propGet (r.props.getD Properties.create) t!"trax.reason" none with
      | .error e => .ok (.error (.exc e), r.handle)
      | .ok reason => .ok (.error (.ended reason), r.handle)
    else (wrapObjectList env r.objects).map fun objects => (.ok objects, r.handle)

/-- `Client.quit` (`support/python/trax/client.py` 276–288). -/
def clientQuit (h : Handle) (reason : Option Text) : Except Exc Unit × Handle :=
  match (match reason with | none => .ok none | some t => (toC t).map some : Except Exc (Option Str)) with
  | .error e => (.error e, h)
  | .ok reason => (.ok (), (h.terminate reason).2)

end Trax.Py
