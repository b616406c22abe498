import Verif.Spec.Session
import Verif.Model.Endpoint

/-!
# Specification of sessions of the C++ classes with a single object
-/

namespace Trax.Cpp.Spec
open Trax.Spec Handle

/-- What the programs on both sides do in one exchange: the client starts tracking with a region (`start`) or sends a
frame; the server waits for it and replies with a region and properties; the client waits for the reply. -/
structure SingleExchange where
  start : Option Region
  images : ImageList
  props : List (Str × Str)
  reply : Region
  replyProps : List (Str × Str)

/-- What both programs see. -/
structure SingleSeen where
  call : Int
  request : Waited
  replied : Int
  answer : Waited

/-- The client's call. -/
def singleCall (clientEnv : Env) (c : Handle) (e : SingleExchange) : Outcome (Int × Option Handle) :=
  match e.start with
  | some r => clientInitializeRegion clientEnv (some c) e.images (some r) (some (Properties.ofPairs e.props))
  | none => clientFrameImages clientEnv (some c) e.images (some (Properties.ofPairs e.props))

/-- One exchange, each `wait` with new `Region` and `Properties` objects. -/
def singleExchange (clientEnv serverEnv : Env) (fuel : Nat) (c s : Handle) (e : SingleExchange) :
    Option (Outcome (SingleSeen × Option Handle × Option Handle)) :=
  match singleCall clientEnv c e with
  | .ok (call, some c₁) =>
    (serverWaitRegion serverEnv fuel (some (deliver c c₁ s)) none Properties.create).map fun o => o.bind fun request =>
      (serverReplyRegion serverEnv request.handle (some e.reply) (some (Properties.ofPairs e.replyProps))).bind fun (replied, s₁, _) =>
        match request.handle, s₁ with
        | some s₀, some s₁ =>
          (clientWaitRegion clientEnv (some (deliver s₀ s₁ c₁)) none Properties.create).map fun answer =>
            (⟨call, request, replied, answer⟩, answer.handle, some s₁)
        | _, _ => .ub
  | .ok (_, none) => some .ub
  | .abort => some .abort
  | .ub => some .ub

/-- A proper exchange: the client starts, or one object is already tracked; the start region (in the form `sent` in which it is
sent), the images, the properties and the reply can be sent. -/
structure SingleExchange.Proper (clientEnv : Env) (c s : Handle) (n : Nat) (e : SingleExchange) (sent : Option Region) : Prop where
  started : e.start = none → n = 1
  images : SendableImages s.metadata.channels s.metadata.images e.images
  region : ∀ r, e.start = some r → WellFormed r ∧ ∃ r', sent = some r' ∧ Region.toSend clientEnv.legacy clientEnv.fresh r c.metadata.regions = .ok r' ∧
    Sendable r'
  props : SendablePairs e.props
  reply : Sendable e.reply

/-- What should be seen, except for the properties of the reply: the server gets images, properties and the start region, the client
the region of the reply (and no properties). -/
structure SingleExchange.Seen (e : SingleExchange) (s : Handle) (sent : Option Region) (o : SingleSeen) : Prop where
  calls : o.call = TRAX_OK ∧ o.replied = TRAX_OK
  request : o.request.ret = if e.start.isSome then TRAX_INITIALIZE else TRAX_FRAME
  images : ∃ l, o.request.images = some l ∧ ImagesArrive s.metadata.channels e.images l
  region : ∀ r, e.start = some r → ∃ r' r'', sent = some r' ∧ o.request.region = some r'' ∧ Arrives r' r''
  props : ∀ k, NoNul k → o.request.props.get k = (Properties.ofPairs e.props).get k
  answer : o.answer.ret = TRAX_STATE
  reply : ∃ r, o.answer.region = some r ∧ Arrives e.reply r
  answerProps : o.answer.props = Properties.create

end Trax.Cpp.Spec
