import Verif.Props.Handshake
import Verif.Props.RegionCodec
import Verif.Props.Image

/-!
# Specification of sessions

What it means that a region, an image, a list of objects "arrives", and a session of a client and a server that both
use the library: everything that one side sends is what the other side reads.
-/

namespace Trax.Spec
open Handle

/-! ## Regions -/

/-- The regions whose text can be read again (see C34–C36): special codes of up to 24 bits, rectangles without NaN,
polygons of at least three points without NaN, masks with a foreground and at most 2^24 pixels. -/
def Sendable : Region → Prop
  | .special code => code.natAbs ≤ 2 ^ 24
  | .rectangle x y w h => (∀ c ∈ [x, y, w, h], c.IsFloat) ∧ ∀ c ∈ [x, y, w, h], c ≠ .nan
  | .polygon ps => 3 ≤ ps.length ∧ (∀ p ∈ ps, p.1.IsFloat ∧ p.2.IsFloat) ∧ ∀ p ∈ ps, p.1 ≠ .nan ∧ p.2 ≠ .nan
  | .mask x y w h data => x.natAbs ≤ 2 ^ 24 ∧ y.natAbs ≤ 2 ^ 24 ∧ 0 < w ∧ 0 < h ∧ (data.length : Int) = w * h ∧ data.length ≤ 2 ^ 24 ∧
      ∃ p ∈ data, p ≠ 0

/-- What is received for a region: the same kind of region with the same code, with each coordinate written
with four decimals and read again, or with the same offset, size and foreground. -/
def Arrives : Region → Region → Prop
  | .special code, r => r = .special code
  | .rectangle x y w h, r => ∃ x' y' w' h', r = .rectangle x' y' w' h' ∧ CoordKept x x' ∧ CoordKept y y' ∧ CoordKept w w' ∧ CoordKept h h'
  | .polygon ps, r => ∃ ps', r = .polygon ps' ∧ List.Forall₂ (fun p p' => CoordKept p.1 p'.1 ∧ CoordKept p.2 p'.2) ps ps'
  | .mask x y w h data, r => ∃ data', r = .mask x y w h data' ∧ data'.length = data.length ∧
      ∀ (i : Nat) (h1 : i < data.length) (h2 : i < data'.length), data'[i] = if data[i] = 0 then 0 else 1

/-! ## Images -/

/-- The images that can be sent: 7-bit paths, memory images with all their pixels, buffers as the library creates them. (Of URLs only the
scheme arrives, see C25.) -/
def SendableImage : Image → Prop
  | .path p => Plain p
  | .url _ => False
  | .memory w h f data => PixelData w h f data
  | .buffer f data => FileData f data

/-- What is received for an image: the same; a buffer is one zero byte longer (see C27). -/
def ImageArrives : Image → Image → Prop
  | .buffer f data, img' => img' = .buffer f (data ++ [0])
  | img, img' => img' = img

/-- The channels color, depth and infrared: their places in a list of images, and their flags. -/
def channelFlags : List (Nat × UInt32) := [(0, 1), (1, 2), (2, 4)]

/-- The flags of the image formats. -/
def imageFormat : Image → UInt32
  | .path _ => 1
  | .url _ => 2
  | .memory _ _ _ _ => 4
  | .buffer _ _ => 8

/-- The images for the channels of the tracker can be sent and are of formats it declared. -/
def SendableImages (channels formats : UInt32) (images : ImageList) : Prop :=
  ∀ c ∈ channelFlags, channels &&& c.2 ≠ 0 →
    ∃ img, images[c.1]? = some (some img) ∧ SendableImage img ∧ formats &&& imageFormat img ≠ 0

/-- The received list has the images of the channels of the tracker, and no others. -/
def ImagesArrive (channels : UInt32) (images images' : ImageList) : Prop :=
  List.Forall₂ (fun c x => if channels &&& c.2 ≠ 0
    then ∃ img img', images[c.1]? = some (some img) ∧ x = some img' ∧ ImageArrives img img' else x = none) channelFlags images'

/-! ## Objects -/

/-- Properties that can be sent. -/
def SendablePairs (kvs : List (Str × Str)) : Prop := ∀ kv ∈ kvs, ValidKey kv.1 ∧ Plain kv.2

/-- Objects of a reply that can be sent. -/
def SendableObjects (objs : List (Region × List (Str × Str))) : Prop := ∀ o ∈ objs, Sendable o.1 ∧ SendablePairs o.2

/-- The received objects: the same number in the same order, each with its region and its properties. -/
def ObjectsArrive (objs : List (Region × List (Str × Str))) (l : ObjList) : Prop :=
  List.Forall₂ (fun o e => (∃ r, e.1 = some r ∧ Arrives o.1 r) ∧ e.2 = Properties.ofPairs o.2) objs l

/-- New objects are sent in a form that the tracker declared: `sent` are the objects in that form. -/
def Converted (env : Env) (formats : UInt32) (objs sent : List (Region × List (Str × Str))) : Prop :=
  List.Forall₂ (fun o o' => Region.toSend env.legacy env.fresh o.1 formats = .ok o'.1 ∧ o'.2 = o.2) objs sent

/-! ## Exchanges -/

/-- What the programs on both sides do in one exchange: the client starts tracking (`start`) or sends a frame,
with images, new objects and properties; the server waits for it and replies; the client waits for the reply. -/
structure Exchange where
  start : Bool
  images : ImageList
  objects : List (Region × List (Str × Str))
  props : List (Str × Str)
  reply : List (Region × List (Str × Str))

/-- What both programs see. -/
structure Seen where
  /-- what the client's call returned -/
  call : Int
  /-- the server's wait -/
  request : WaitResult
  /-- what the server's reply returned -/
  replied : Int
  /-- the client's wait -/
  answer : WaitResult

/-- The receiver gets what the sender has sent since `before`. -/
def deliver (before after receiver : Handle) : Handle :=
  { receiver with stream := { receiver.stream with
      input := receiver.stream.input ++ bytes (after.stream.out.sent.drop before.stream.out.sent.length) } }

/-- One exchange of the multi-object interface: what is seen, and the two handles after it. `none` if the server's wait has not ended after `fuel` messages. -/
def exchange (clientEnv serverEnv : Env) (fuel : Nat) (c s : Handle) (e : Exchange) : Option (Outcome (Seen × Handle × Handle)) :=
  match (if e.start then c.clientInitialize clientEnv e.images (objectList e.objects) (some (Properties.ofPairs e.props))
      else c.clientFrame clientEnv e.images (some (objectList e.objects)) (some (Properties.ofPairs e.props))) with
  | .ok (call, c₁) =>
    (serverWaitMot serverEnv fuel (deliver c c₁ s) (some Properties.create)).map fun o => o.bind fun request =>
      (serverReplyMot request.handle (objectList e.reply)).bind fun (replied, s₁) =>
        (clientWait clientEnv (deliver request.handle s₁ c₁) (some Properties.create)).map fun answer =>
          (⟨call, request, replied, answer⟩, answer.handle, s₁)
  | .abort => some .abort
  | .ub => some .ub

/-- Two handles of a session between exchanges: both alive, nothing on the way, and they agree on
the protocol (version 4) and on the number of objects. -/
structure Connected (c s : Handle) (n : Nat) : Prop where
  sides : c.server = false ∧ s.server = true
  alive : c.isAlive = true ∧ s.isAlive = true
  versions : c.version = 4
  channels : c.metadata.channels = s.metadata.channels
  known : s.metadata.channels &&& 7 = s.metadata.channels
  multi : c.isMulti = s.isMulti
  quiet : c.stream.input = [] ∧ s.stream.input = []
  reliable : c.stream.out.Reliable ∧ s.stream.out.Reliable
  objects : c.objects = n ∧ s.objects = n

/-- The number of objects after an exchange. -/
def Exchange.count (e : Exchange) (n : Nat) : Nat := if e.start then e.objects.length else n + e.objects.length

/-- A proper exchange of the session when `n` objects are tracked: there is at least one object, and just one unless the tracker supports more; images, new objects and
properties can be sent; the server replies with one region per object. -/
structure Exchange.Proper (clientEnv : Env) (c s : Handle) (n : Nat) (e : Exchange) (sent : List (Region × List (Str × Str))) : Prop where
  some_object : 0 < e.count n
  starts : e.start = true → e.objects ≠ []
  mode : c.isMulti = false → e.count n = 1
  images : SendableImages s.metadata.channels s.metadata.images e.images
  converted : Converted clientEnv c.metadata.regions e.objects sent
  objects : SendableObjects sent
  props : SendablePairs e.props
  replies : e.reply.length = e.count n
  reply : SendableObjects e.reply

/-- What should be seen in an exchange. -/
structure Exchange.Seen (e : Exchange) (s : Handle) (n : Nat) (sent : List (Region × List (Str × Str))) (o : Spec.Seen) : Prop where
  calls : o.call = TRAX_OK ∧ o.replied = TRAX_OK
  /-- the server is told whether tracking starts, or goes on (possibly with more objects) -/
  request : o.request.ret = if e.start = true ∨ (n = 0 ∧ e.objects ≠ []) then TRAX_INITIALIZE else TRAX_FRAME
  images : ∃ l, o.request.images = some l ∧ ImagesArrive s.metadata.channels e.images l
  objects : (o.request.objects = none ∧ e.objects = []) ∨ ∃ l, o.request.objects = some l ∧ e.objects ≠ [] ∧ ObjectsArrive sent l
  props : o.request.props = some (Properties.ofPairs e.props)
  answer : o.answer.ret = TRAX_STATE
  reply : ∃ l, o.answer.objects = some l ∧ ObjectsArrive e.reply l
  /-- properties come with the objects only -/
  answerProps : o.answer.props = some Properties.create

/-! ## Sessions -/

/-- A history of exchanges. -/
def session (clientEnv serverEnv : Env) (fuel : Nat) (c s : Handle) : List Exchange → Option (Outcome (List Seen × Handle × Handle))
  | [] => some (.ok ([], c, s))
  | e :: es =>
    match exchange clientEnv serverEnv fuel c s e with
    | some (.ok (o, c', s')) => (session clientEnv serverEnv fuel c' s' es).map fun r => r.map fun (os, c'', s'') => (o :: os, c'', s'')
    | some .abort => some .abort
    | some .ub => some .ub
    | none => none

/-- All exchanges of a history are proper, when `n` objects are tracked at its beginning. Each exchange comes with its
new objects in the form in which they are sent. -/
def ProperSession (clientEnv : Env) (c s : Handle) : Nat → List (Exchange × List (Region × List (Str × Str))) → Prop
  | _, [] => True
  | n, (e, sent) :: es => e.Proper clientEnv c s n sent ∧ ProperSession clientEnv c s (e.count n) es

/-- What should be seen in a history. -/
def SessionSeen (s : Handle) : Nat → List (Exchange × List (Region × List (Str × Str))) → List Seen → Prop
  | _, [], os => os = []
  | n, (e, sent) :: es, os => ∃ o os', os = o :: os' ∧ e.Seen s n sent o ∧ SessionSeen s (e.count n) es os'

/-- The number of objects after a history. -/
def countAfter : Nat → List Exchange → Nat
  | n, [] => n
  | n, e :: es => countAfter (e.count n) es

end Trax.Spec
