import Verif.Model.Handle

/-!
# Model of the memory of C programs that use handles (`src/trax.c` 530–1496)

The functions of `Verif/Model/Handle.lean` once more, now with the blocks that they take from `malloc` and give
back with `free`. A block is a number that is never used again; releasing a block that is not there (twice, or
never taken) is undefined. An object that is always made and released as one is one block: a property object, an
image, a region, a text, the metadata of a handle, a message stream with its two buffers. A list of texts
(`string_list`) is its structure, its array and its texts; an object list is its structure, its two arrays, its
regions and its property objects; an image list is its structure and its images.

Simplifications, beside those of `Verif/Model/Handle.lean`:
* blocks that a function called here takes and gives back before it returns, whatever happens, are left out
  (the buffers of `read_message`, `image_decode`, `region_parse` and `region_string`, the nodes of maps, the
  texts that `trax_properties_get_int` reads); `realloc` keeps its block;
* what a block contains is the concern of `Verif/Model/Handle.lean`; here it is only followed that blocks which
  are used are there.
-/

namespace Trax
namespace CMem

open Handle

/-- How a part of a program can end: as in `Outcome`, or not yet (`more`: after reading the number of messages that
was given). -/
inductive Res (α : Type) where
  | ok (a : α)
  | abort
  | ub
  | more
deriving DecidableEq, Repr

/-- A pointer to a block. -/
abbrev Ptr := Nat

/-- The memory: the blocks that are taken and the number of the next one. -/
structure Heap where
  next : Ptr
  live : List Ptr
deriving DecidableEq, Repr

/-- A part of a program. -/
def Prog (α : Type) := Heap → Res (α × Heap)

instance : Monad Prog where
  pure a := fun m => .ok (a, m)
  bind f g := fun m =>
    match f m with
    | .ok (a, m') => g a m'
    | .abort => .abort
    | .ub => .ub
    | .more => .more

/-- A failed `assert`. -/
def abort {α : Type} : Prog α := fun _ => .abort

/-- Undefined behaviour. -/
def ub {α : Type} : Prog α := fun _ => .ub

/-- Not yet finished. -/
def more {α : Type} : Prog α := fun _ => .more

/-- A step that takes and gives no memory. -/
def outcome {α : Type} : Outcome α → Prog α
  | .ok a => pure a
  | .abort => abort
  | .ub => ub

/-- `malloc`, which succeeds. -/
def new : Prog Ptr := fun m => .ok (m.next, ⟨m.next + 1, m.next :: m.live⟩)

/-- `free` of a pointer that is not NULL. -/
def free (p : Ptr) : Prog Unit := fun m =>
  if p ∈ m.live then .ok ((), ⟨m.next, m.live.erase p⟩) else .ub

/-- `if (p) free(p)`. -/
def freeIf : Option Ptr → Prog Unit
  | none => pure ()
  | some p => free p

/-- A block if there is something to put into it, NULL otherwise. -/
def newIf (given : Bool) : Prog (Option Ptr) :=
  if given then some <$> new else pure none

/-- `n` blocks. -/
def newAll : Nat → Prog (List Ptr)
  | 0 => pure []
  | n + 1 => do
    let p ← new
    let ps ← newAll n
    pure (p :: ps)

/-- Giving back several blocks. -/
def freeAll : List Ptr → Prog Unit
  | [] => pure ()
  | p :: ps => do
    free p
    freeAll ps

/-! ## Lists -/

/-- A `string_list` (`src/buffer.h`): structure, array, texts. -/
structure TextsAt where
  self : Ptr
  array : Ptr
  texts : List Ptr
deriving DecidableEq, Repr

/-- `list_create` (`src/buffer.h` 110–117). -/
def createTexts : Prog TextsAt := do
  let self ← new
  let array ← new
  pure ⟨self, array, []⟩

/-- `list_append` (`src/buffer.h` 165–175): the list takes a copy. -/
def appendText (l : TextsAt) : Prog TextsAt := do
  let t ← new
  pure { l with texts := l.texts ++ [t] }

/-- `list_append_direct` (`src/buffer.h` 177–187): the list takes the text itself. -/
def appendDirect (l : TextsAt) (t : Ptr) : TextsAt := { l with texts := l.texts ++ [t] }

/-- `list_destroy` (`src/buffer.h` 128–143). -/
def destroyTexts (l : TextsAt) : Prog Unit := do
  freeAll l.texts
  free l.array
  free l.self

/-- `trax_region_release` and `region_release` (`src/trax.c` 1692–1700, `src/region.c` 715–738): NULL is
undefined. -/
def releaseRegion : Option Ptr → Prog Unit
  | none => ub
  | some p => free p

/-- A `trax_object_list`: structure, array of regions, array of property objects, the objects. -/
structure ObjectsAt where
  self : Ptr
  regions : Ptr
  properties : Ptr
  entries : List (Option Ptr × Ptr)
deriving DecidableEq, Repr

/-- The loop of `trax_object_list_create` (`src/trax.c` 2060–2063). -/
def newEntries : Nat → Prog (List (Option Ptr × Ptr))
  | 0 => pure []
  | n + 1 => do
    let r ← new
    let p ← new
    let es ← newEntries n
    pure ((some r, p) :: es)

/-- `trax_object_list_create` (`src/trax.c` 2049–2066). -/
def createObjects (n : Nat) : Prog ObjectsAt := do
  let self ← new
  let regions ← new
  let properties ← new
  let entries ← newEntries n
  pure ⟨self, regions, properties, entries⟩

/-- The loop of `trax_object_list_release` (`src/trax.c` 2073–2076). -/
def releaseEntries : List (Option Ptr × Ptr) → Prog Unit
  | [] => pure ()
  | (r, p) :: es => do
    releaseRegion r
    free p
    releaseEntries es

/-- `trax_object_list_release` (`src/trax.c` 2069–2082). -/
def releaseObjects (l : ObjectsAt) : Prog Unit := do
  releaseEntries l.entries
  free l.regions
  free l.properties
  free l.self

/-- `trax_object_list_set` (`src/trax.c` 2085–2093) with a region (`given`) or NULL. -/
def setObject (l : ObjectsAt) (i : Nat) (given : Bool) : Prog ObjectsAt :=
  match l.entries[i]? with
  | none => pure l
  | some (r, p) => do
    releaseRegion r
    if given then do
      let c ← new
      pure { l with entries := l.entries.set i (some c, p) }
    else pure { l with entries := l.entries.set i (none, p) }

/-- A `trax_image_list`: structure and images. -/
structure ImagesAt where
  self : Ptr
  images : List (Option Ptr)
deriving DecidableEq, Repr

/-- `trax_image_list_clear` (`src/trax.c` 2146–2157), also written out at the end of the waiting functions
(`src/trax.c` 1177–1179, 1322–1324). -/
def clearImages : List (Option Ptr) → Prog Unit
  | [] => pure ()
  | p :: ps => do
    freeIf p
    clearImages ps

/-- The images of a list and the list itself: `trax_image_list_clear` and `trax_image_list_release`
(`src/trax.c` 2146–2169; `src/trax.c` 1176–1181, 1321–1326). -/
def releaseImages (l : ImagesAt) : Prog Unit := do
  clearImages l.images
  free l.self

/-- `if (*images) { … }` in the failure branches of the waiting functions (`src/trax.c` 1176–1181, 1321–1326). -/
def releaseImagesIf : Option ImagesAt → Prog Unit
  | none => pure ()
  | some l => releaseImages l

/-! ## Handles -/

/-- The blocks of a handle. -/
structure HandleAt where
  self : Ptr
  stream : Ptr
  metadata : Ptr
  error : Option Ptr
deriving DecidableEq, Repr

/-- `clear_error` (`src/trax.c` 530–537). -/
def clearError (p : HandleAt) : Prog HandleAt := do
  freeIf p.error
  pure { p with error := none }

/-- `set_error` (`src/trax.c` 539–558). -/
def setError (p : HandleAt) : Prog HandleAt := do
  let buffer ← new
  freeIf p.error
  let text ← new
  free buffer
  pure { p with error := some text }

/-- A message that was read: its content, the arguments and the properties. -/
structure Received where
  msg : ReadResult
  stream : Stream
  args : TextsAt
  props : Ptr

/-- Making a property object and a list and reading a message into them (for example `src/trax.c` 787–789,
1222–1225). -/
def receive (s : Stream) : Prog Received := do
  let props ← new
  let args ← createTexts
  let texts ← newAll s.read.1.args.length
  pure ⟨s.read.1, s.read.2, { args with texts }, props⟩

/-- `list_destroy(&arguments); trax_properties_release(&tmp_properties);` -/
def Received.release (r : Received) : Prog Unit := do
  destroyTexts r.args
  free r.props

/-! ## Introduction -/

/-- `if (tmp) free(tmp)` for a text that was taken from properties (`trax_properties_get` gives a copy). -/
def textAndBack (given : Bool) : Prog Unit :=
  if given then do
    let t ← new
    free t
  else pure ()

/-- `client_setup` (`src/trax.c` 561–643) on the stream at `s`: NULL (`none`) exactly when it goes to `failure`. The
stream is not touched there. -/
def clientSetup (stream : Stream) (s : Ptr) : Prog (Option (HandleAt × Handle)) := do
  let self ← new
  let r ← receive stream
  let made ← outcome (Handle.clientSetup stream)
  match made with
  | none => do
    destroyTexts r.args
    free r.props
    free self
    pure none
  | some h => do
    textAndBack true
    textAndBack true
    textAndBack (decide (¬ h.version < 2))
    let name ← newIf h.metadata.name.isSome
    let description ← newIf h.metadata.description.isSome
    let family ← newIf h.metadata.family.isSome
    let metadata ← new
    freeIf name
    freeIf description
    freeIf family
    free r.props
    destroyTexts r.args
    pure (some (⟨self, s, metadata, none⟩, h))

/-- `server_setup` (`src/trax.c` 645–710) on the stream at `s`. -/
def serverSetup (junk : UInt32) (m : Metadata) (stream : Stream) (version : Int) (s : Ptr) : Prog (HandleAt × Handle) := do
  let self ← new
  let props ← new
  let h ← outcome (Handle.serverSetup junk m stream version)
  let metadata ← new
  let args ← createTexts
  free props
  destroyTexts args
  pure (⟨self, s, metadata, none⟩, h)

/-! ## Waiting -/

/-- What a waiting call gives back: the result as in `Verif/Model/Handle.lean`, the blocks of the handle and the
contents of the variables of the caller. -/
structure Waited where
  res : WaitResult
  handle : HandleAt
  images : Option ImagesAt
  objects : Option ObjectsAt
  region : Option Ptr

/-- The loop of `trax_client_wait` (`src/trax.c` 785–846). -/
def clientWaitLoop (env : Env) (p : HandleAt) (i : Nat) (l : ObjectsAt) (acc : ObjList) (ret : Int) (props : Option Properties)
    (h : Handle) : Nat → Prog Waited
  | 0 => pure ⟨⟨ret, none, some acc, none, props, h⟩, p, none, some l, none⟩
  | k + 1 => do
    let r ← receive h.stream
    let h := { h with stream := r.stream }
    match r.msg.mtype with
    | none => do
      r.release
      releaseObjects l
      pure ⟨⟨TRAX_ERROR, none, none, none, props, h⟩, p, none, none, none⟩
    | some .state =>
      match r.msg.args with
      | [text] => do
        let parsed ← outcome (Region.parse text)
        if parsed.ret = 0 then do
          r.release
          releaseObjects l
          pure ⟨⟨TRAX_ERROR, none, none, none, props, h⟩, p, none, none, none⟩
        else do
          let acc ← outcome (ObjList.set env.legacy env.fresh acc i parsed.region)
          match parsed.region with
          | none => ub
          | some _ => do
            let region ← new
            let l ← setObject l i true
            releaseRegion (some region)
            r.release
            clientWaitLoop env p (i + 1) l
              (acc.setProperties i (copyAll r.msg.props ((acc.properties i).getD Properties.create))) TRAX_STATE props h k
      | _ => do
        r.release
        releaseObjects l
        pure ⟨⟨TRAX_ERROR, none, none, none, props, h⟩, p, none, none, none⟩
    | some .quit =>
      if r.msg.args.length ≠ 0 then do
        r.release
        releaseObjects l
        pure ⟨⟨TRAX_ERROR, none, none, none, props, h⟩, p, none, none, none⟩
      else do
        r.release
        releaseObjects l
        pure ⟨⟨TRAX_QUIT, none, none, none, props.map (copyAll r.msg.props ·), { h with terminated := true }⟩, p, none, none, none⟩
    | some t => do
      r.release
      clientWaitLoop env p (i + 1) l acc t.code props h k

/-- `trax_client_wait` (`src/trax.c` 770–850): `*objects` is NULL first, whatever it was. -/
def clientWait (env : Env) (p : HandleAt) (h : Handle) (props : Option Properties) : Prog Waited :=
  if h.server then abort
  else if ¬ h.alive then do
    let p ← setError p
    pure ⟨⟨TRAX_ERROR, none, none, none, props, h.setError b!"Tracker not alive"⟩, p, none, none, none⟩
  else do
    let l ← createObjects h.objects
    clientWaitLoop env p 0 l (ObjList.create h.objects) TRAX_ERROR props h h.objects

/-- The loop over the channels when images arrive (`src/trax.c` 1110–1121, 1152–1163, 1262–1273): the images, or `none`
if one cannot be decoded or has a format that was not declared; and what is in the list then. -/
def decodeImages (env : Env) (m : Metadata) : List Nat → List Str → Prog (Option ImageList × List (Option Ptr))
  | [], _ => pure (some [], [])
  | i :: is, args =>
    if supports m.channels (ImageList.channelId i) then
      match args with
      | [] => ub
      | text :: args => do
        let d ← outcome (Image.decode env.freshByte text)
        match d.image with
        | none => pure (none, [none])
        | some img => do
          let p ← new
          if supports m.images (UInt32.ofNat img.type) then do
            let rest ← decodeImages env m is args
            pure (rest.1.map (some img :: ·), some p :: rest.2)
          else pure (none, [some p])
    else do
      let rest ← decodeImages env m is args
      pure (rest.1.map (none :: ·), none :: rest.2)

/-- Labels `failure` and `end` of `trax_server_wait_sot` (`src/trax.c` 1172–1194). -/
def failSot (r : Received) (p : HandleAt) (images : Option ImagesAt) (region : Option Ptr) (props : Option Properties)
    (h : Handle) : Prog Waited := do
  releaseImagesIf images
  freeIf region
  r.release
  pure ⟨⟨TRAX_ERROR, none, none, none, props, h⟩, p, none, none, none⟩

/-- `trax_server_wait_sot` (`src/trax.c` 1073–1195); `images` and `region` are the contents of the variables of the
caller before the call. -/
def serverWaitSot (env : Env) (p : HandleAt) (h : Handle) (images : Option ImagesAt) (region : Option Ptr)
    (props : Option Properties) : Prog Waited :=
  if ¬ h.server then abort
  else do
    let p ← clearError p
    let h := h.clearError
    if ¬ h.alive then do
      let p ← setError p
      pure ⟨⟨TRAX_ERROR, none, none, none, props, h.setError b!"Server not alive"⟩, p, images, none, region⟩
    else if h.isV4 then do
      let p ← setError p
      pure ⟨⟨TRAX_ERROR, none, none, none, props, h.setError b!"Invalid mode"⟩, p, images, none, region⟩
    else do
      let count ← outcome (ImageList.count h.metadata.channels)
      let r ← receive h.stream
      let h := { h with stream := r.stream }
      match r.msg.mtype with
      | some .frame =>
        if r.msg.args.length ≠ count then do
          let p ← setError p
          failSot r p images region props h.setErrorGarbled
        else do
          let l ← new
          let d ← decodeImages env h.metadata channelIndexes r.msg.args
          match d.1 with
          | none => failSot r p (some ⟨l, d.2⟩) region props h
          | some images => do
            r.release
            pure ⟨⟨TRAX_FRAME, some images, none, none, props.map (copyAll r.msg.props ·), h⟩, p, some ⟨l, d.2⟩, none, region⟩
      | some .quit =>
        if r.msg.args.length ≠ 0 then do
          let p ← setError p
          failSot r p images region props h.setErrorGarbled
        else do
          r.release
          pure ⟨⟨TRAX_QUIT, none, none, none, props.map (copyAll r.msg.props ·), { h with terminated := true }⟩, p, images, none, region⟩
      | some .initialize =>
        if r.msg.args.length ≠ count + 1 then do
          let p ← setError p
          failSot r p images region props h.setErrorGarbled
        else do
          let l ← new
          let d ← decodeImages env h.metadata channelIndexes r.msg.args
          match d.1 with
          | none => failSot r p (some ⟨l, d.2⟩) region props h
          | some images =>
            match r.msg.args[(channelIndexes.filter fun i => supports h.metadata.channels (ImageList.channelId i)).length]? with
            | none => ub
            | some text => do
              let parsed ← outcome (Region.parse text)
              -- `region_parse` writes the variable of the caller in any case
              if parsed.ret = 0 then failSot r p (some ⟨l, d.2⟩) none props h
              else do
                let region ← newIf parsed.region.isSome
                r.release
                pure ⟨⟨TRAX_INITIALIZE, some images, none, parsed.region, props.map (copyAll r.msg.props ·), { h with objects := 1 }⟩,
                  p, some ⟨l, d.2⟩, none, region⟩
      | _ => failSot r p images region props h

/-- An object that was received: its region and properties, with their blocks. -/
structure Item where
  region : Option Region
  props : Properties
  regionAt : Option Ptr
  propsAt : Ptr

/-- The object without its blocks. -/
def Item.value (o : Item) : Option Region × Properties := (o.region, o.props)

/-- Releasing the objects received so far (`src/trax.c` 1327–1330). -/
def releaseItems : List Item → Prog Unit
  | [] => pure ()
  | o :: os => do
    releaseRegion o.regionAt
    free o.propsAt
    releaseItems os

/-- The loop that builds the object list (`src/trax.c` 1338–1343) from index `i` on; `done` are the objects of the list
so far. -/
def buildObjects (env : Env) : Nat → ObjectsAt → List Item → Prog (ObjList × ObjectsAt)
  | _, l, [] => pure ([], l)
  | i, l, o :: os => do
    let c ← outcome (Region.clone env.legacy env.fresh o.region)
    let l ← setObject l i o.regionAt.isSome
    releaseRegion o.regionAt
    free o.propsAt
    let rest ← buildObjects env (i + 1) l os
    pure ((c, copyAll o.props Properties.create) :: rest.1, rest.2)

/-- The two arrays of `trax_server_wait_mot`. -/
structure Arrays where
  regions : Ptr
  properties : Ptr

/-- Label `end` of `trax_server_wait_mot` (`src/trax.c` 1333–1354). -/
def finishMot (env : Env) (a : Arrays) (r : Received) (p : HandleAt) (images : Option ImagesAt) (ret : Int)
    (list : Option ImageList) (objs : List Item) (props : Option Properties) (h : Handle) : Prog Waited :=
  if objs.length ≠ 0 then do
    let l ← createObjects objs.length
    let built ← buildObjects env 0 l objs
    r.release
    free a.regions
    free a.properties
    pure ⟨⟨ret, list, some built.1, none, props, { h with objects := h.objects + objs.length }⟩, p, images, some built.2, none⟩
  else do
    r.release
    free a.regions
    free a.properties
    pure ⟨⟨ret, list, none, none, props, h⟩, p, images, none, none⟩

/-- Labels `failure` and `end` of `trax_server_wait_mot` (`src/trax.c` 1317–1354). -/
def failMot (a : Arrays) (r : Received) (p : HandleAt) (images : Option ImagesAt) (objs : List Item)
    (props : Option Properties) (h : Handle) : Prog Waited := do
  releaseImagesIf images
  releaseItems objs
  r.release
  free a.regions
  free a.properties
  pure ⟨⟨TRAX_ERROR, none, none, none, props, h⟩, p, none, none, none⟩

/-- The loop of `trax_server_wait_mot` (`src/trax.c` 1221–1313). The `continue` after a message that takes all objects
away (1282–1286) releases neither the arguments nor the properties of that message. -/
def waitMotLoop (env : Env) (a : Arrays) (p : HandleAt) (images : Option ImagesAt) (count : Nat) (props : Option Properties) :
    (fuel : Nat) → (init : Bool) → (objs : List Item) → Handle → Prog Waited
  | 0, _, _, _ => more
  | fuel + 1, init, objs, h => do
    let r ← receive h.stream
    let h := { h with stream := r.stream }
    match r.msg.mtype with
    | none => failMot a r p images objs props h
    | some .quit =>
      if r.msg.args.length ≠ 0 then do
        let p ← setError p
        failMot a r p images objs props h.setErrorGarbled
      else finishMot env a r p images TRAX_QUIT none objs (props.map (copyExternal r.msg.props ·)) { h with terminated := true }
    | some .frame =>
      if init ∧ objs.length = 0 then do
        let p ← setError p
        failMot a r p images objs props (h.setError b!"No object was given to track")
      else
        let ret := if ¬ init ∨ h.objects > 0 then TRAX_FRAME else TRAX_INITIALIZE
        if r.msg.args.length ≠ count then do
          let p ← setError p
          failMot a r p images objs props h.setErrorGarbled
        else do
          let l ← new
          let d ← decodeImages env h.metadata channelIndexes r.msg.args
          match d.1 with
          | none => failMot a r p (some ⟨l, d.2⟩) objs props h
          | some images => finishMot env a r p (some ⟨l, d.2⟩) ret (some images) objs (props.map (copyAll r.msg.props ·)) h
    | some .initialize =>
      if r.msg.args.length = 0 then waitMotLoop env a p images count props fuel true objs { h with objects := 0 }
      else
        match r.msg.args with
        | [text] => do
          let parsed ← outcome (Region.parse text)
          if parsed.ret = 0 then failMot a r p images objs props h
          else do
            let region ← newIf parsed.region.isSome
            let properties ← new
            r.release
            waitMotLoop env a p images count props fuel true
              (objs ++ [⟨parsed.region, copyAll r.msg.props Properties.create, region, properties⟩]) h
        | _ => do
          let p ← setError p
          failMot a r p images objs props h.setErrorGarbled
    | some _ => do
      r.release
      waitMotLoop env a p images count props fuel init objs h

/-- `trax_server_wait_mot` (`src/trax.c` 1197–1354); `images` is the content of the variable of the caller before the
call. The arrays are taken before the handle is looked at. -/
def serverWaitMot (env : Env) (fuel : Nat) (p : HandleAt) (h : Handle) (images : Option ImagesAt) (props : Option Properties) :
    Prog Waited := do
  let regions ← new
  let properties ← new
  if ¬ h.server then abort
  else do
    let p ← clearError p
    let h := h.clearError
    if ¬ h.alive then do
      let p ← setError p
      pure ⟨⟨TRAX_ERROR, none, none, none, props, h.setError b!"Server not alive"⟩, p, images, none, none⟩
    else do
      let count ← outcome (ImageList.count h.metadata.channels)
      waitMotLoop env ⟨regions, properties⟩ p images count props fuel false [] h

/-! ## Sending -/

/-- The loop over the channels when images are sent (`src/trax.c` 900–911, 1010–1021) into the list `l`. -/
def encodeImages (channels : UInt32) (images : ImageList) : TextsAt → List Nat → Prog (Option (List Str) × TextsAt)
  | l, [] => pure (some [], l)
  | l, i :: is =>
    if supports channels (ImageList.channelId i) then
      match images[i]? with
      | none => ub
      | some none => pure (none, l)
      | some (some img) => do
        let text ← outcome img.encode
        let buffer ← new
        let rest ← encodeImages channels images (appendDirect l buffer) is
        pure (rest.1.map (text :: ·), rest.2)
    else encodeImages channels images l is

/-- `region_autoconvert` and `region_convert` (`src/trax.c` 462–475, `src/region.c` 539–713): the block of the new region.
From a polygon to a mask a second container is made first and forgotten (`src/region.c` 673–678). -/
def convertRegion (r : Region) (formats : UInt32) : Prog Ptr := do
  if supports formats 8 ∧ r.type = .polygon then do
    let _ ← new
    new
  else new

/-- `region_string` of the region or of the converted region, which is then released (`src/trax.c` 914–924, 975–984):
the text, if there is one. -/
def sentText (formats : UInt32) (r : Region) (given : Bool) : Prog (Option Ptr) :=
  if supports formats r.apiType then newIf given
  else do
    let converted ← convertRegion r formats
    let data ← newIf given
    releaseRegion (some converted)
    pure data

/-- The text of a region that is sent, appended to the list `l` (`src/trax.c` 914–929, 975–989). -/
def regionArgument (env : Env) (formats : UInt32) (r : Option Region) (l : TextsAt) : Prog (List Str × TextsAt) :=
  match r with
  | none => ub
  | some r => do
    let r' ← outcome (Region.toSend env.legacy env.fresh r formats)
    let text ← outcome r'.string
    let data ← sentText formats r text.isSome
    match data with
    | none => pure (text.toList, l)
    | some data => do
      let l ← appendText l
      free data
      pure (text.toList, l)

/-- The loop over the objects in `trax_client_frame` (`src/trax.c` 969–994). -/
def sendObjects (env : Env) (formats : UInt32) (s : Stream) : ObjList → Prog Stream
  | [] => pure s
  | (r, p) :: rest => do
    let l ← createTexts
    let args ← regionArgument env formats r l
    destroyTexts args.2
    sendObjects env formats (s.write .initialize args.1 p) rest

/-- Sending the images at the end of `trax_client_frame` (`src/trax.c` 1006–1028). -/
def sendFrame (p : HandleAt) (h : Handle) (images : ImageList) (props : Option Properties) : Prog (Int × HandleAt × Handle) := do
  let l ← createTexts
  let args ← encodeImages h.metadata.channels images l channelIndexes
  match args.1 with
  | none => do
    let p ← setError p
    destroyTexts args.2
    pure (TRAX_ERROR, p, h.setErrorGarbled)
  | some texts => do
    destroyTexts args.2
    pure (TRAX_OK, p, { h with stream := h.stream.write .frame texts (props.getD Properties.create) })

/-- `set_error(…); return TRAX_ERROR;` -/
def refuse (p : HandleAt) (h : Handle) (s : Str) : Prog (Int × HandleAt × Handle) := do
  let p ← setError p
  pure (TRAX_ERROR, p, h.setError s)

/-- `trax_client_frame` (`src/trax.c` 947–1030). -/
def clientFrame (env : Env) (p : HandleAt) (h : Handle) (images : ImageList) (objects : Option ObjList) (props : Option Properties) :
    Prog (Int × HandleAt × Handle) :=
  if h.server then abort
  else do
    let p ← clearError p
    let h := h.clearError
    if ¬ h.alive then refuse p h b!"Client not alive"
    else
      let n := (objects.getD []).length
      if h.isV4 then
        if h.objects + n > 1 ∧ ¬ h.isMulti then refuse p h b!"Invalid mode"
        else do
          let stream ← sendObjects env h.metadata.regions h.stream (objects.getD [])
          sendFrame p { h with stream, objects := h.objects + n } images props
      else if n > 0 then refuse p h b!"Unable to add new objects"
      else sendFrame p h images props

/-- `trax_client_initialize` (`src/trax.c` 852–945). -/
def clientInitialize (env : Env) (p : HandleAt) (h : Handle) (images : ImageList) (objects : ObjList) (props : Option Properties) :
    Prog (Int × HandleAt × Handle) :=
  if h.server then abort
  else do
    let p ← clearError p
    let h := h.clearError
    if ¬ h.alive then refuse p h b!"Client not alive"
    else
      let n := objects.length
      if n < 1 then refuse p h b!"At least one object required"
      else if ¬ h.isMulti ∧ n > 1 then refuse p h b!"Too many objects given"
      else if h.isV4 then
        let h := if h.objects > 0 then
            { h with stream := h.stream.write .initialize [] Properties.create, objects := 0 }
          else h
        clientFrame env p h images (some objects) props
      else
        match ObjList.get objects 0 with
        | none => ub
        | some r =>
          if r.apiType = 1 then abort
          else do
            let l ← createTexts
            let args ← encodeImages h.metadata.channels images l channelIndexes
            match args.1 with
            | none => do
              let p ← setError p
              destroyTexts args.2
              pure (TRAX_ERROR, p, h.setErrorGarbled)
            | some texts => do
              let data ← regionArgument env h.metadata.regions (some r) args.2
              destroyTexts data.2
              pure (TRAX_OK, p, { h with stream := h.stream.write .initialize (texts ++ data.1) (props.getD Properties.create), objects := 1 })

/-- One message with the state of an object (`src/trax.c` 1376–1386, 1421–1427): `none` if the region has no text. -/
def sendState (s : Stream) (region : Option Region) (props : Properties) : Prog (Option Stream) := do
  let text ← outcome (regionText region)
  match text with
  | none => pure none
  | some text => do
    let data ← new
    let l ← createTexts
    destroyTexts (appendDirect l data)
    pure (some (s.write .state [text] props))

/-- `trax_server_reply_sot` (`src/trax.c` 1356–1389). -/
def serverReplySot (p : HandleAt) (h : Handle) (region : Option Region) (props : Option Properties) : Prog (Int × HandleAt × Handle) :=
  if ¬ h.server then abort
  else do
    let p ← clearError p
    let h := h.clearError
    if ¬ h.alive then refuse p h b!"Server not alive"
    else if h.isV4 then refuse p h b!"Invalid mode"
    else do
      let sent ← sendState h.stream region (props.getD Properties.create)
      match sent with
      | none => pure (TRAX_ERROR, p, h)
      | some stream => pure (TRAX_OK, p, { h with stream })

/-- The loop of `trax_server_reply_mot` (`src/trax.c` 1420–1428). -/
def replyLoop (p : HandleAt) (h : Handle) : ObjList → Prog (Int × HandleAt × Handle)
  | [] => pure (TRAX_OK, p, h)
  | (r, props) :: rest => do
    let sent ← sendState h.stream r props
    match sent with
    | none => pure (TRAX_ERROR, p, h)
    | some stream => replyLoop p { h with stream } rest

/-- `trax_server_reply_mot` (`src/trax.c` 1391–1430). -/
def serverReplyMot (p : HandleAt) (h : Handle) (objects : ObjList) : Prog (Int × HandleAt × Handle) :=
  if ¬ h.server then abort
  else do
    let p ← clearError p
    let h := h.clearError
    if ¬ h.alive then refuse p h b!"Server not alive"
    else if ¬ h.isMulti ∧ objects.length ≠ 1 then refuse p h b!"Invalid mode"
    else if objects.length ≠ h.objects then refuse p h b!"Invalid object count"
    else replyLoop p h objects

/-! ## Both sides -/

/-- `trax_terminate` (`src/trax.c` 1449–1476). -/
def terminate (p : HandleAt) (h : Handle) (reason : Option Str) : Prog (Int × HandleAt × Handle) := do
  let p ← clearError p
  if ¬ h.alive then pure (TRAX_OK, p, h.clearError)
  else do
    let args ← createTexts
    let props ← new
    destroyTexts args
    free props
    pure (TRAX_OK, p, (h.terminate reason).2)

/-- `trax_cleanup` (`src/trax.c` 1478–1496) for a handle that is not NULL. -/
def cleanup (p : HandleAt) (h : Handle) : Prog Unit := do
  let t ← terminate p h none
  free t.2.1.metadata
  free t.2.1.stream
  let q ← clearError t.2.1
  free q.self

/-! ## Programs -/

/-- What a caller does with what a waiting call gave it: `trax_image_list_clear` and `trax_image_list_release`,
`trax_object_list_release`, `trax_region_release`, for those that are not NULL. -/
def releaseGiven (w : Waited) : Prog Unit := do
  releaseImagesIf w.images
  match w.objects with
  | none => pure ()
  | some l => releaseObjects l
  freeIf w.region

/-- A call of a caller whose variables are NULL before and who releases what it gets. -/
def call (env : Env) (fuel : Nat) (p : HandleAt) (h : Handle) : Call → Prog (Int × HandleAt × Handle)
  | .clientWait props => do
    let w ← clientWait env p h props
    releaseGiven w
    pure (w.res.ret, w.handle, w.res.handle)
  | .clientInitialize images objects props => clientInitialize env p h images objects props
  | .clientFrame images objects props => clientFrame env p h images objects props
  | .serverWaitSot props => do
    let w ← serverWaitSot env p h none none props
    releaseGiven w
    pure (w.res.ret, w.handle, w.res.handle)
  | .serverWaitMot props => do
    let w ← serverWaitMot env fuel p h none props
    releaseGiven w
    pure (w.res.ret, w.handle, w.res.handle)
  | .serverReplySot region props => serverReplySot p h region props
  | .serverReplyMot objects => serverReplyMot p h objects
  | .terminate reason => terminate p h reason
  | .setParameter id value => pure (h.setParameter id value, p, h)
  | .getParameter socket id => pure ((h.getParameter socket id).1, p, h)
  | .getError => pure (0, p, h)
  | .isAlive => pure (if h.isAlive then 1 else 0, p, h)

/-- A history of calls. -/
def calls (env : Env) (fuel : Nat) (p : HandleAt) (h : Handle) : List Call → Prog (List Int × HandleAt × Handle)
  | [] => pure ([], p, h)
  | c :: cs => do
    let r ← call env fuel p h c
    let rest ← calls env fuel r.2.1 r.2.2 cs
    pure (r.1 :: rest.1, rest.2)

/-- A program that sets a client up on a new stream (`trax_client_setup_file`, `src/trax.c` 753–759), makes calls and
cleans up; `none` if there is no handle. -/
def clientProgram (env : Env) (fuel : Nat) (stream : Stream) (cs : List Call) : Prog (Option (List Int)) := do
  let s ← new
  let made ← clientSetup stream s
  match made with
  | none => pure none
  | some (p, h) => do
    let r ← calls env fuel p h cs
    cleanup r.2.1 r.2.2
    pure (some r.1)

/-- A program that sets a server up on a new stream (`trax_server_setup_file_v`, `src/trax.c` 1066–1071), makes calls and
cleans up. -/
def serverProgram (env : Env) (fuel : Nat) (junk : UInt32) (m : Metadata) (stream : Stream) (version : Int) (cs : List Call) :
    Prog (List Int) := do
  let s ← new
  let made ← serverSetup junk m stream version s
  let r ← calls env fuel made.1 made.2 cs
  cleanup r.2.1 r.2.2
  pure r.1

end CMem
end Trax
