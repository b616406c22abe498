import Verif.Spec.Single

/-!
# Specification of sessions of the single-object protocol (versions 1 to 3)
-/

namespace Trax.Spec
open Handle Cpp.Spec

/-- The client's call. -/
def sotCall (clientEnv : Env) (c : Handle) (e : SingleExchange) : Outcome (Int × Handle) :=
  match e.start with
  | some r => c.clientInitialize clientEnv e.images (objectList [(r, [])]) (some (Properties.ofPairs e.props))
  | none => c.clientFrame clientEnv e.images none (some (Properties.ofPairs e.props))

/-- One exchange of the single-object interface: the client starts tracking or sends a frame; the server waits for it with
`trax_server_wait_sot` and replies with `trax_server_reply_sot`; the client waits for the reply. -/
def sotExchange (clientEnv serverEnv : Env) (c s : Handle) (e : SingleExchange) : Outcome (Seen × Handle × Handle) :=
  (sotCall clientEnv c e).bind fun (call, c₁) =>
  (serverWaitSot serverEnv (deliver c c₁ s) (some Properties.create)).bind fun request =>
  (serverReplySot request.handle (some e.reply) (some (Properties.ofPairs e.replyProps))).bind fun (replied, s₁) =>
  (clientWait clientEnv (deliver request.handle s₁ c₁) (some Properties.create)).map fun answer =>
    (⟨call, request, replied, answer⟩, answer.handle, s₁)

/-- Two handles of a session of the single-object protocol between exchanges; `n` is 1 if tracking has started and 0 otherwise. -/
structure SotConnected (c s : Handle) (n : Nat) : Prop where
  sides : c.server = false ∧ s.server = true
  alive : c.isAlive = true ∧ s.isAlive = true
  versions : c.version < 4 ∧ s.version < 4
  channels : c.metadata.channels = s.metadata.channels
  known : s.metadata.channels &&& 7 = s.metadata.channels
  quiet : c.stream.input = [] ∧ s.stream.input = []
  reliable : c.stream.out.Reliable ∧ s.stream.out.Reliable
  objects : c.objects = n

/-- A proper exchange: the client starts with a region that is not special, or tracking has started already; the start region (in the form
`sent` in which it is sent), the images, the properties and the reply can be sent. -/
structure SotProper (clientEnv : Env) (c s : Handle) (n : Nat) (e : SingleExchange) (sent : Option Region) : Prop where
  started : e.start = none → n = 1
  images : SendableImages s.metadata.channels s.metadata.images e.images
  region : ∀ r, e.start = some r → (∀ code, r ≠ .special code) ∧
    ∃ r', sent = some r' ∧ Region.toSend clientEnv.legacy clientEnv.fresh r c.metadata.regions = .ok r' ∧ Sendable r'
  props : SendablePairs e.props
  reply : Sendable e.reply
  replyProps : SendablePairs e.replyProps

/-- What should be seen: the server gets the images and properties, and the region exactly if tracking starts; the client gets one object, with
the region and the properties of the reply. -/
structure SotSeen (e : SingleExchange) (s : Handle) (sent : Option Region) (o : Seen) : Prop where
  calls : o.call = TRAX_OK ∧ o.replied = TRAX_OK
  request : o.request.ret = if e.start.isSome then TRAX_INITIALIZE else TRAX_FRAME
  images : ∃ l, o.request.images = some l ∧ ImagesArrive s.metadata.channels e.images l
  region : match e.start with
    | none => o.request.region = none
    | some _ => ∃ r' r'', sent = some r' ∧ o.request.region = some r'' ∧ Arrives r' r''
  props : o.request.props = some (Properties.ofPairs e.props)
  answer : o.answer.ret = TRAX_STATE
  reply : ∃ l, o.answer.objects = some l ∧ ObjectsArrive [(e.reply, e.replyProps)] l
  /-- properties come with the object only -/
  answerProps : o.answer.props = some Properties.create

/-- A history of exchanges. -/
def sotSession (clientEnv serverEnv : Env) (c s : Handle) : List SingleExchange → Outcome (List Seen × Handle × Handle)
  | [] => .ok ([], c, s)
  | e :: es => (sotExchange clientEnv serverEnv c s e).bind fun (o, c', s') =>
      (sotSession clientEnv serverEnv c' s' es).map fun (os, c'', s'') => (o :: os, c'', s'')

/-- All exchanges of a history are proper; after the first one tracking has started. -/
def SotProperSession (clientEnv : Env) (c s : Handle) : Nat → List (SingleExchange × Option Region) → Prop
  | _, [] => True
  | n, (e, sent) :: es => SotProper clientEnv c s n e sent ∧ SotProperSession clientEnv c s 1 es

/-- What should be seen in a history. -/
def SotSessionSeen (s : Handle) (es : List (SingleExchange × Option Region)) (os : List Seen) : Prop :=
  List.Forall₂ (fun e o => SotSeen e.1 s e.2 o) es os

end Trax.Spec

namespace Trax.Cpp.Spec
open Trax.Spec Handle

/-- One exchange of the C++ classes `Client` and `ServerSOT`, each `wait` with new `Region` and `Properties` objects. -/
def sotSingleExchange (clientEnv serverEnv : Env) (c s : Handle) (e : SingleExchange) :
    Outcome (SingleSeen × Option Handle × Option Handle) :=
  (singleCall clientEnv c e).bind fun
  | (call, some c₁) =>
    (serverSotWait serverEnv (some (deliver c c₁ s)) none Properties.create).bind fun request =>
      (serverSotReply request.handle (some e.reply) (some (Properties.ofPairs e.replyProps))).bind fun (replied, s₁) =>
        match request.handle, s₁ with
        | some s₀, some s₁ =>
          (clientWaitRegion clientEnv (some (deliver s₀ s₁ c₁)) none Properties.create).map fun answer =>
            (⟨call, request, replied, answer⟩, answer.handle, some s₁)
        | _, _ => .ub
  | (_, none) => .ub

/-- What should be seen: the server gets the images, the properties and the region with which tracking starts; the client gets
the region and the properties of the reply. -/
structure SingleExchange.SotSeen (e : SingleExchange) (s : Handle) (sent : Option Region) (o : SingleSeen) : Prop where
  calls : o.call = TRAX_OK ∧ o.replied = TRAX_OK
  request : o.request.ret = if e.start.isSome then TRAX_INITIALIZE else TRAX_FRAME
  images : ∃ l, o.request.images = some l ∧ ImagesArrive s.metadata.channels e.images l
  region : match e.start with
    | none => o.request.region = none
    | some _ => ∃ r' r'', sent = some r' ∧ o.request.region = some r'' ∧ Arrives r' r''
  props : ∀ k, NoNul k → o.request.props.get k = (Properties.ofPairs e.props).get k
  answer : o.answer.ret = TRAX_STATE
  reply : ∃ r, o.answer.region = some r ∧ Arrives e.reply r
  replyProps : ∀ k, NoNul k → o.answer.props.get k = (Properties.ofPairs e.replyProps).get k

end Trax.Cpp.Spec
