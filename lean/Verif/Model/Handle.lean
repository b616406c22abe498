import Verif.Model.Lists
import Verif.Model.Message
import Verif.Model.NumText

/-!
# Model of the handles of `src/trax.c` (530–1530): introduction, client, server

Simplifications, beside those of the modules used:
* memory that is leaked or released is not followed; the stray bytes that `image_decode` and `region_parse`
  can write behind a block (C26, C38) are ignored;
* the counters of tracked objects do not overflow;
* pointers passed by the caller are valid; `*images`, `*region` and `*objects` are NULL on entry;
  the image list given to a client call is not NULL;
* text given to the log callback is followed for written messages only (`Writer.log`).
-/

namespace Trax

/-- What the library takes from its surroundings: the compatibility switch of `src/region.c`
(`REGION_LEGACY_RASTERIZATION`, see `Verif/Model/Geometry.lean`) and the content of fresh memory. -/
structure Env where
  legacy : Bool
  fresh : Nat → List UInt8
  freshByte : Nat → UInt8

/-- `message_stream` (`src/message.h`): the message type left by the last read, the input that will
arrive, the output side. -/
structure Stream where
  mtype : Option MsgType
  input : List InEv
  out : Writer
deriving DecidableEq, Repr

namespace Stream

/-- `read_message` with a new list of arguments and new properties, as all callers use it
(for example `src/trax.c` 787–789). -/
def read (s : Stream) : ReadResult × Stream :=
  let r := readMessage s.mtype Properties.create s.input
  (r, { s with mtype := r.mtype, input := r.rest })

/-- `write_message`; the callers ignore its result. -/
def write (s : Stream) (t : MsgType) (args : List Str) (props : Properties) : Stream :=
  { s with out := s.out.writeMessage t args props }

end Stream

/-- The text returned by `trax_get_error`: none (NULL), a text, or a text with indeterminate parts.
`set_error` (`src/trax.c` 539–558) passes its `va_list` on as an ordinary argument, so that the numbers
in formats with `%d` are garbage (formally undefined behaviour; execution is assumed to go on). -/
inductive ErrorText where
  | none
  | text (s : Str)
  | garbled
deriving DecidableEq, Repr

/-- `struct trax_metadata` (`include/trax.h`). -/
structure Metadata where
  regions : UInt32
  images : UInt32
  channels : UInt32
  name : Option Str
  description : Option Str
  family : Option Str
  custom : Properties
  flags : UInt32
deriving DecidableEq, Repr

/-- `struct trax_handle` (`include/trax.h`), without the log callback. `TRAX_FLAG_VALID` is set for
every handle. -/
structure Handle where
  server : Bool
  terminated : Bool
  version : Int
  objects : Nat
  error : ErrorText
  metadata : Metadata
  stream : Stream
deriving DecidableEq, Repr

/-- Return values: `TRAX_ERROR`, `TRAX_OK` and the message types (`include/trax.h` 44–50). -/
abbrev TRAX_ERROR : Int := -1
@[inherit_doc TRAX_ERROR] abbrev TRAX_OK : Int := 0
@[inherit_doc TRAX_ERROR] abbrev TRAX_HELLO : Int := 1
@[inherit_doc TRAX_ERROR] abbrev TRAX_INITIALIZE : Int := 2
@[inherit_doc TRAX_ERROR] abbrev TRAX_FRAME : Int := 3
@[inherit_doc TRAX_ERROR] abbrev TRAX_QUIT : Int := 4
@[inherit_doc TRAX_ERROR] abbrev TRAX_STATE : Int := 5

/-- The number of a message type. -/
def MsgType.code : MsgType → Int
  | .hello => 1
  | .initialize => 2
  | .frame => 3
  | .quit => 4
  | .state => 5

/-- `COPY_ALL | COPY_OVERWRITE` and `COPY_EXTERNAL | COPY_OVERWRITE`. -/
def copyAll (source dest : Properties) : Properties :=
  Properties.copyProperties source dest (Properties.COPY_ALL ||| Properties.COPY_OVERWRITE)

@[inherit_doc copyAll] def copyExternal (source dest : Properties) : Properties :=
  Properties.copyProperties source dest (Properties.COPY_EXTERNAL ||| Properties.COPY_OVERWRITE)

/-- `trax_metadata_create` (`src/trax.c` 712–733). -/
def Metadata.create (regions images channels : UInt32) (name description family : Option Str) (flags : UInt32) :
    Outcome Metadata :=
  if channels ≠ 0 then
    .ok ⟨regions, images, channels, name.map cstr, description.map cstr, family.map cstr, Properties.create, flags⟩
  else .abort

namespace Handle

/-- `HANDLE_ALIVE` (`src/trax.c` 28). -/
def alive (h : Handle) : Bool := !h.terminated

/-- `IS_MULTI_OBJECT` (`src/trax.c` 22). -/
def isMulti (h : Handle) : Bool := supports h.metadata.flags 1

/-- `IS_VERSION_4` (`src/trax.c` 26). -/
def isV4 (h : Handle) : Bool := decide (h.version ≥ 4)

/-- `clear_error` (`src/trax.c` 530–537). -/
def clearError (h : Handle) : Handle := { h with error := .none }

/-- `set_error` with a format without conversions. -/
def setError (h : Handle) (s : Str) : Handle := { h with error := .text s }

/-- `set_error` with `%d` in the format. -/
def setErrorGarbled (h : Handle) : Handle := { h with error := .garbled }

/-! ## Introduction -/

/-- A decoded set of formats as the `int` that the code stores: -1 for an unknown name. -/
def formatsInt (o : Option UInt32) : UInt32 := o.getD 0xFFFFFFFF

/-- `client_setup` (`src/trax.c` 561–643); `none` is NULL. `region_formats_decode(NULL)` (and the same for
images and channels) calls `strtok(NULL, …)` first, which is undefined. -/
def clientSetup (stream : Stream) : Outcome (Option Handle) :=
  let (msg, stream) := stream.read
  if msg.mtype ≠ some .hello then .ok none
  else if msg.args.length > 0 then .ok none
  else
    (msg.props.getInt b!"trax.version" 1).bind fun version =>
    match msg.props.get b!"trax.region" with
    | none => .ub
    | some regionText =>
    match msg.props.get b!"trax.image" with
    | none => .ub
    | some imageText =>
    let channels : Outcome UInt32 :=
      if version < 2 then .ok 1
      else match msg.props.get b!"trax.channels" with
        | none => .ub
        | some text =>
          let c := formatsInt (channelsDecode text)
          .ok (if c = 0 then 1 else c)
    channels.bind fun channels =>
    let multi : Outcome Int := if version > 3 then msg.props.getInt b!"trax.multiobject" 0 else .ok 0
    multi.bind fun multi =>
    (Metadata.create (formatsInt (regionFormatsDecode regionText)) (formatsInt (imageFormatsDecode imageText)) channels
      (msg.props.get b!"trax.name") (msg.props.get b!"trax.description") (msg.props.get b!"trax.family")
      (if multi ≠ 0 then 1 else 0)).map fun m =>
    some { server := false, terminated := false, version, objects := 0, error := .none,
           metadata := { m with custom := copyExternal msg.props m.custom }, stream }

/-- The properties of the introduction (`src/trax.c` 658–697). -/
def helloProperties (m : Metadata) (version : Int) : Properties :=
  let p := m.custom.copy
  let p := p.setInt b!"trax.version" version
  let p := p.set b!"trax.region" (regionFormatsEncode m.regions)
  let p := p.set b!"trax.image" (imageFormatsEncode m.images)
  let p := p.set b!"trax.channels" (channelsEncode m.channels)
  let p := match m.name with | some s => p.set b!"trax.name" s | none => p
  let p := match m.description with | some s => p.set b!"trax.description" s | none => p
  let p := match m.family with | some s => p.set b!"trax.family" s | none => p
  if version ≥ 4 ∧ supports m.flags 1 then p.setInt b!"trax.multiobject" 1 else p

/-- `server_setup` (`src/trax.c` 645–710). The local variable `flags` is not initialised for versions
below 4: `junk` is its value. -/
def serverSetup (junk : UInt32) (m : Metadata) (stream : Stream) (version : Int) : Outcome Handle :=
  if version ≤ 4 then
    let version := if version < 1 then 4 else version
    let flags := if version ≥ 4 then (if supports m.flags 1 then 1 else 0) else junk
    (Metadata.create m.regions m.images m.channels m.name m.description m.family flags).map fun m' =>
      { server := true, terminated := false, version, objects := 0, error := .none, metadata := m',
        stream := stream.write .hello [] (helloProperties m version) }
  else .abort

/-! ## Client -/

/-- What a waiting call gives back to its caller. -/
structure WaitResult where
  ret : Int
  images : Option ImageList
  objects : Option ObjList
  region : Option Region
  /-- the property object of the caller; `none` if NULL was passed -/
  props : Option Properties
  handle : Handle
deriving DecidableEq, Repr

/-- The loop of `trax_client_wait` (`src/trax.c` 785–846) from slot `i` on with `k` slots left. -/
def clientWaitLoop (env : Env) (i : Nat) (acc : ObjList) (ret : Int) (props : Option Properties) (h : Handle) :
    Nat → Outcome WaitResult
  | 0 => .ok ⟨ret, none, some acc, none, props, h⟩
  | k + 1 =>
    let (msg, stream) := h.stream.read
    let h := { h with stream }
    match msg.mtype with
    | none => .ok ⟨TRAX_ERROR, none, none, none, props, h⟩
    | some .state =>
      match msg.args with
      | [text] =>
        (Region.parse text).bind fun parsed =>
          if parsed.ret = 0 then .ok ⟨TRAX_ERROR, none, none, none, props, h⟩
          else
            (ObjList.set env.legacy env.fresh acc i parsed.region).bind fun acc =>
              match parsed.region with
              | none => .ub -- region_release(&_region) with NULL
              | some _ =>
                clientWaitLoop env (i + 1)
                  (acc.setProperties i (copyAll msg.props ((acc.properties i).getD Properties.create))) TRAX_STATE props h k
      | _ => .ok ⟨TRAX_ERROR, none, none, none, props, h⟩
    | some .quit =>
      if msg.args.length ≠ 0 then .ok ⟨TRAX_ERROR, none, none, none, props, h⟩
      else .ok ⟨TRAX_QUIT, none, none, none, props.map (copyAll msg.props ·), { h with terminated := true }⟩
    | some t => clientWaitLoop env (i + 1) acc t.code props h k

/-- `trax_client_wait` (`src/trax.c` 770–850). The error is not cleared. -/
def clientWait (env : Env) (h : Handle) (props : Option Properties) : Outcome WaitResult :=
  if h.server then .abort
  else if ¬ h.alive then .ok ⟨TRAX_ERROR, none, none, none, props, h.setError b!"Tracker not alive"⟩
  else clientWaitLoop env 0 (ObjList.create h.objects) TRAX_ERROR props h h.objects

/-- The loop over the channels when images are sent (`src/trax.c` 900–911, 1010–1021): `none` if a required
image is missing. -/
def encodeImages (channels : UInt32) (images : ImageList) : List Nat → Outcome (Option (List Str))
  | [] => .ok (some [])
  | i :: is =>
    if supports channels (ImageList.channelId i) then
      match images[i]? with
      | none => .ub
      | some none => .ok none
      | some (some img) =>
        img.encode.bind fun text => (encodeImages channels images is).map fun rest => rest.map (text :: ·)
    else encodeImages channels images is

/-- The indexes of the channels. -/
def channelIndexes : List Nat := [0, 1, 2]

/-- The arguments of the message that announces an object (`src/trax.c` 970–989): no argument if the
region has no text. A NULL region is dereferenced by `REGION_TYPE`. -/
def regionArgument (env : Env) (formats : UInt32) (r : Option Region) : Outcome (List Str) :=
  match r with
  | none => .ub
  | some r => (Region.toSend env.legacy env.fresh r formats).bind fun r' => r'.string.map fun t => t.toList

/-- The loop over the objects in `trax_client_frame` (`src/trax.c` 969–994). -/
def sendObjects (env : Env) (formats : UInt32) (s : Stream) : ObjList → Outcome Stream
  | [] => .ok s
  | (r, p) :: rest =>
    (regionArgument env formats r).bind fun args => sendObjects env formats (s.write .initialize args p) rest

/-- `trax_client_frame` (`src/trax.c` 947–1030); `none` for `objects` and `props` is NULL. -/
def clientFrame (env : Env) (h : Handle) (images : ImageList) (objects : Option ObjList) (props : Option Properties) :
    Outcome (Int × Handle) :=
  if h.server then .abort
  else
    let h := h.clearError
    if ¬ h.alive then .ok (TRAX_ERROR, h.setError b!"Client not alive")
    else
      let n := (objects.getD []).length
      let send (h : Handle) : Outcome (Int × Handle) :=
        (encodeImages h.metadata.channels images channelIndexes).map fun args =>
          match args with
          | none => (TRAX_ERROR, h.setErrorGarbled)
          | some args => (TRAX_OK, { h with stream := h.stream.write .frame args (props.getD Properties.create) })
      if h.isV4 then
        if h.objects + n > 1 ∧ ¬ h.isMulti then .ok (TRAX_ERROR, h.setError b!"Invalid mode")
        else
          (sendObjects env h.metadata.regions h.stream (objects.getD [])).bind fun stream =>
            send { h with stream, objects := h.objects + n }
      else if n > 0 then .ok (TRAX_ERROR, h.setError b!"Unable to add new objects")
      else send h

/-- `trax_client_initialize` (`src/trax.c` 852–945); `images` and `objects` are not NULL. -/
def clientInitialize (env : Env) (h : Handle) (images : ImageList) (objects : ObjList) (props : Option Properties) :
    Outcome (Int × Handle) :=
  if h.server then .abort
  else
    let h := h.clearError
    if ¬ h.alive then .ok (TRAX_ERROR, h.setError b!"Client not alive")
    else
      let n := objects.length
      if n < 1 then .ok (TRAX_ERROR, h.setError b!"At least one object required")
      else if ¬ h.isMulti ∧ n > 1 then .ok (TRAX_ERROR, h.setError b!"Too many objects given")
      else if h.isV4 then
        let h := if h.objects > 0 then
            { h with stream := h.stream.write .initialize [] Properties.create, objects := 0 }
          else h
        clientFrame env h images (some objects) props
      else
        match ObjList.get objects 0 with
        | none => .ub
        | some r =>
          if r.apiType = 1 then .abort -- SPECIAL and TRAX_REGION_SPECIAL are both 1
          else
            (encodeImages h.metadata.channels images channelIndexes).bind fun args =>
              match args with
              | none => .ok (TRAX_ERROR, h.setErrorGarbled)
              | some args =>
                (regionArgument env h.metadata.regions (some r)).map fun data =>
                  (TRAX_OK, { h with stream := h.stream.write .initialize (args ++ data) (props.getD Properties.create), objects := 1 })

/-! ## Server -/

/-- The loop over the channels when images arrive (`src/trax.c` 1110–1121, 1152–1163, 1262–1273): `none` if an
image cannot be decoded or has a format that was not declared. -/
def decodeImages (env : Env) (m : Metadata) : List Nat → List Str → Outcome (Option ImageList)
  | [], _ => .ok (some [])
  | i :: is, args =>
    if supports m.channels (ImageList.channelId i) then
      match args with
      | [] => .ub
      | text :: args =>
        (Image.decode env.freshByte text).bind fun d =>
          match d.image with
          | none => .ok none
          | some img =>
            if supports m.images (UInt32.ofNat img.type) then
              (decodeImages env m is args).map fun rest => rest.map (some img :: ·)
            else .ok none
    else (decodeImages env m is args).map fun rest => rest.map (none :: ·)

/-- `trax_server_wait_sot` (`src/trax.c` 1073–1195). -/
def serverWaitSot (env : Env) (h : Handle) (props : Option Properties) : Outcome WaitResult :=
  if ¬ h.server then .abort
  else
    let h := h.clearError
    if ¬ h.alive then .ok ⟨TRAX_ERROR, none, none, none, props, h.setError b!"Server not alive"⟩
    else if h.isV4 then .ok ⟨TRAX_ERROR, none, none, none, props, h.setError b!"Invalid mode"⟩
    else
      (ImageList.count h.metadata.channels).bind fun count =>
        let (msg, stream) := h.stream.read
        let h := { h with stream }
        match msg.mtype with
        | some .frame =>
          if msg.args.length ≠ count then .ok ⟨TRAX_ERROR, none, none, none, props, h.setErrorGarbled⟩
          else
            (decodeImages env h.metadata channelIndexes msg.args).map fun images =>
              match images with
              | none => ⟨TRAX_ERROR, none, none, none, props, h⟩
              | some images => ⟨TRAX_FRAME, some images, none, none, props.map (copyAll msg.props ·), h⟩
        | some .quit =>
          if msg.args.length ≠ 0 then .ok ⟨TRAX_ERROR, none, none, none, props, h.setErrorGarbled⟩
          else .ok ⟨TRAX_QUIT, none, none, none, props.map (copyAll msg.props ·), { h with terminated := true }⟩
        | some .initialize =>
          if msg.args.length ≠ count + 1 then .ok ⟨TRAX_ERROR, none, none, none, props, h.setErrorGarbled⟩
          else
            (decodeImages env h.metadata channelIndexes msg.args).bind fun images =>
              match images with
              | none => .ok ⟨TRAX_ERROR, none, none, none, props, h⟩
              | some images =>
                -- `arguments->buffer[j]`, where `j` is the number of channels that were read
                match msg.args[(channelIndexes.filter fun i => supports h.metadata.channels (ImageList.channelId i)).length]? with
                | none => .ub
                | some text =>
                  (Region.parse text).map fun parsed =>
                    if parsed.ret = 0 then ⟨TRAX_ERROR, none, none, none, props, h⟩
                    else ⟨TRAX_INITIALIZE, some images, none, parsed.region, props.map (copyAll msg.props ·), { h with objects := 1 }⟩
        | _ => .ok ⟨TRAX_ERROR, none, none, none, props, h⟩

/-- Building the object list at the end of `trax_server_wait_mot` (`src/trax.c` 1338–1343): a NULL region is
stored and then released, which is undefined. -/
def buildObjects (env : Env) : List (Option Region × Properties) → Outcome ObjList
  | [] => .ok []
  | (r, p) :: rest =>
    (Region.clone env.legacy env.fresh r).bind fun c =>
      match r with
      | none => .ub
      | some _ => (buildObjects env rest).map fun t => (c, copyAll p Properties.create) :: t

/-- Label `end` of `trax_server_wait_mot` (`src/trax.c` 1333–1354). -/
def finishMot (env : Env) (ret : Int) (images : Option ImageList) (objs : List (Option Region × Properties))
    (props : Option Properties) (h : Handle) : Outcome WaitResult :=
  if objs.length ≠ 0 then
    (buildObjects env objs).map fun l => ⟨ret, images, some l, none, props, { h with objects := h.objects + objs.length }⟩
  else .ok ⟨ret, images, none, none, props, h⟩

/-- Label `failure` (`src/trax.c` 1317–1331): the regions received so far are released, which is undefined
for NULL. -/
def failMot (objs : List (Option Region × Properties)) (props : Option Properties) (h : Handle) : Outcome WaitResult :=
  if objs.all (fun e => e.1.isSome) then .ok ⟨TRAX_ERROR, none, none, none, props, h⟩ else .ub

/-- The loop `while (1)` of `trax_server_wait_mot` (`src/trax.c` 1221–1313); `init` tells whether `result` is
`TRAX_INITIALIZE`, `objs` are the objects received so far. The result is `none` if the loop has not ended
after `fuel` messages. -/
def waitMotLoop (env : Env) (count : Nat) (props : Option Properties) :
    (fuel : Nat) → (init : Bool) → (objs : List (Option Region × Properties)) → Handle → Option (Outcome WaitResult)
  | 0, _, _, _ => none
  | fuel + 1, init, objs, h =>
    let (msg, stream) := h.stream.read
    let h := { h with stream }
    match msg.mtype with
    | none => some (failMot objs props h)
    | some .quit =>
      if msg.args.length ≠ 0 then some (failMot objs props h.setErrorGarbled)
      else some (finishMot env TRAX_QUIT none objs (props.map (copyExternal msg.props ·)) { h with terminated := true })
    | some .frame =>
      if init ∧ objs.length = 0 then some (failMot objs props (h.setError b!"No object was given to track"))
      else
        let ret := if ¬ init ∨ h.objects > 0 then TRAX_FRAME else TRAX_INITIALIZE
        if msg.args.length ≠ count then some (failMot objs props h.setErrorGarbled)
        else some ((decodeImages env h.metadata channelIndexes msg.args).bind fun images =>
          match images with
          | none => failMot objs props h
          | some images => finishMot env ret (some images) objs (props.map (copyAll msg.props ·)) h)
    | some .initialize =>
      if msg.args.length = 0 then waitMotLoop env count props fuel true objs { h with objects := 0 }
      else
        match msg.args with
        | [text] =>
          match Region.parse text with
          | .abort => some .abort
          | .ub => some .ub
          | .ok parsed =>
            if parsed.ret = 0 then some (failMot objs props h)
            else waitMotLoop env count props fuel true (objs ++ [(parsed.region, copyAll msg.props Properties.create)]) h
        | _ => some (failMot objs props h.setErrorGarbled)
    | some _ => waitMotLoop env count props fuel init objs h

/-- `trax_server_wait_mot` (`src/trax.c` 1197–1354); `none`: not finished after reading `fuel` messages. -/
def serverWaitMot (env : Env) (fuel : Nat) (h : Handle) (props : Option Properties) : Option (Outcome WaitResult) :=
  if ¬ h.server then some .abort
  else
    let h := h.clearError
    if ¬ h.alive then some (.ok ⟨TRAX_ERROR, none, none, none, props, h.setError b!"Server not alive"⟩)
    else
      match ImageList.count h.metadata.channels with
      | .ok count => waitMotLoop env count props fuel false [] h
      | .abort => some .abort
      | .ub => some .ub

/-- `region_string` for a pointer that may be NULL (`src/region.c` 468). -/
def regionText : Option Region → Outcome (Option Str)
  | none => .ok none
  | some r => r.string

/-- `trax_server_reply_sot` (`src/trax.c` 1356–1389). -/
def serverReplySot (h : Handle) (region : Option Region) (props : Option Properties) : Outcome (Int × Handle) :=
  if ¬ h.server then .abort
  else
    let h := h.clearError
    if ¬ h.alive then .ok (TRAX_ERROR, h.setError b!"Server not alive")
    else if h.isV4 then .ok (TRAX_ERROR, h.setError b!"Invalid mode")
    else
      (regionText region).map fun data =>
        match data with
        | none => (TRAX_ERROR, h)
        | some text => (TRAX_OK, { h with stream := h.stream.write .state [text] (props.getD Properties.create) })

/-- The loop over the objects in `trax_server_reply_mot` (`src/trax.c` 1420–1428). -/
def replyLoop (h : Handle) : ObjList → Outcome (Int × Handle)
  | [] => .ok (TRAX_OK, h)
  | (r, p) :: rest =>
    (regionText r).bind fun data =>
      match data with
      | none => .ok (TRAX_ERROR, h)
      | some text => replyLoop { h with stream := h.stream.write .state [text] p } rest

/-- `trax_server_reply_mot` (`src/trax.c` 1391–1430); `objects` is not NULL. -/
def serverReplyMot (h : Handle) (objects : ObjList) : Outcome (Int × Handle) :=
  if ¬ h.server then .abort
  else
    let h := h.clearError
    if ¬ h.alive then .ok (TRAX_ERROR, h.setError b!"Server not alive")
    else if ¬ h.isMulti ∧ objects.length ≠ 1 then .ok (TRAX_ERROR, h.setError b!"Invalid mode")
    else if objects.length ≠ h.objects then .ok (TRAX_ERROR, h.setError b!"Invalid object count")
    else replyLoop h objects

/-! ## Both sides -/

/-- The properties of the quit message (`src/trax.c` 1462–1466). -/
def quitProperties (reason : Option Str) : Properties :=
  match reason with
  | none => Properties.create
  | some s => Properties.create.set b!"trax.reason" s

/-- `trax_terminate` (`src/trax.c` 1449–1476). -/
def terminate (h : Handle) (reason : Option Str) : Int × Handle :=
  let h := h.clearError
  if ¬ h.alive then (TRAX_OK, h)
  else (TRAX_OK, { h with terminated := true, stream := h.stream.write .quit [] (quitProperties reason) })

/-- `trax_cleanup` (`src/trax.c` 1478–1496), for a handle that is not NULL: the output of the stream when it is
closed. The handle itself is gone. -/
def cleanup (h : Handle) : Int × Writer := (0, (h.terminate none).2.stream.out)

/-- `trax_get_error` (`src/trax.c` 1433–1439). -/
def getError (h : Handle) : ErrorText := h.error

/-- `trax_is_alive` (`src/trax.c` 1441–1447). -/
def isAlive (h : Handle) : Bool := h.alive

/-- `trax_set_parameter` (`src/trax.c` 1498–1506). -/
def setParameter (h : Handle) (_id _value : Int) : Int := if ¬ h.alive then TRAX_ERROR else 0

/-- `trax_get_parameter` (`src/trax.c` 1508–1529): return value and `*value` (`none`: not written). `socket`
tells whether the stream is a socket. -/
def getParameter (h : Handle) (socket : Bool) (id : Int) : Int × Option Int :=
  if ¬ h.alive then (TRAX_ERROR, none)
  else if id = 0 then (1, some h.version)
  else if id = 1 then (1, some (if ¬ h.server then 1 else 0))
  else if id = 2 then (1, some (if socket then 1 else 0))
  else if id = 5 then (1, some (if h.isMulti then 1 else 0))
  else (0, none)

/-! ## Histories of calls -/

/-- The calls of the API on a handle (without `trax_cleanup`, after which there is no handle). -/
inductive Call where
  | clientWait (props : Option Properties)
  | clientInitialize (images : ImageList) (objects : ObjList) (props : Option Properties)
  | clientFrame (images : ImageList) (objects : Option ObjList) (props : Option Properties)
  | serverWaitSot (props : Option Properties)
  | serverWaitMot (props : Option Properties)
  | serverReplySot (region : Option Region) (props : Option Properties)
  | serverReplyMot (objects : ObjList)
  | terminate (reason : Option Str)
  | setParameter (id value : Int)
  | getParameter (socket : Bool) (id : Int)
  | getError
  | isAlive
deriving DecidableEq, Repr

/-- The calls that exchange messages with the peer. -/
def Call.communicates : Call → Bool
  | clientWait _ | clientInitialize .. | clientFrame .. | serverWaitSot _ | serverWaitMot _ | serverReplySot .. | serverReplyMot _ => true
  | _ => false

/-- The side a call is for: `some true` server, `some false` client, `none` both. -/
def Call.side : Call → Option Bool
  | clientWait _ | clientInitialize .. | clientFrame .. => some false
  | serverWaitSot _ | serverWaitMot _ | serverReplySot .. | serverReplyMot _ => some true
  | _ => none

/-- The outcome of a call: return value and the handle afterwards; `none` if it has not returned after reading
`fuel` messages. -/
def call (env : Env) (fuel : Nat) (h : Handle) : Call → Option (Outcome (Int × Handle))
  | .clientWait props => some ((h.clientWait env props).map fun w => (w.ret, w.handle))
  | .clientInitialize images objects props => some (h.clientInitialize env images objects props)
  | .clientFrame images objects props => some (h.clientFrame env images objects props)
  | .serverWaitSot props => some ((h.serverWaitSot env props).map fun w => (w.ret, w.handle))
  | .serverWaitMot props => (h.serverWaitMot env fuel props).map fun o => o.map fun w => (w.ret, w.handle)
  | .serverReplySot region props => some (h.serverReplySot region props)
  | .serverReplyMot objects => some (h.serverReplyMot objects)
  | .terminate reason => some (.ok (h.terminate reason))
  | .setParameter id value => some (.ok (h.setParameter id value, h))
  | .getParameter socket id => some (.ok ((h.getParameter socket id).1, h))
  | .getError => some (.ok (0, h))
  | .isAlive => some (.ok (if h.isAlive then 1 else 0, h))

/-- `h` becomes `h'` by the calls `cs`, which return `rets`. -/
inductive Calls (env : Env) : Handle → List Call → List Int → Handle → Prop where
  | nil (h) : Calls env h [] [] h
  | cons {h c ret h' cs rets h''} (fuel : Nat) (hc : h.call env fuel c = some (.ok (ret, h'))) (hs : Calls env h' cs rets h'') :
      Calls env h (c :: cs) (ret :: rets) h''

/-- A history as a function; `none` if a call does not return. -/
def runCalls (env : Env) (fuel : Nat) : Handle → List Call → Option (List Int × Handle)
  | h, [] => some ([], h)
  | h, c :: cs =>
    match h.call env fuel c with
    | some (.ok (ret, h')) => (runCalls env fuel h' cs).map fun r => (ret :: r.1, r.2)
    | _ => none

end Handle
end Trax
