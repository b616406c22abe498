import Verif.Model.PySession
import Verif.Spec.Session
import Verif.Spec.Python
import Verif.Spec.ObjectLists

/-!
# Specification of sessions of Python programs
-/

namespace Trax.Py.Spec
open Trax.Spec (ValidKey Plain Arrives ImageArrives Sendable WellFormed deliver Connected)

/-- The bytes of a text of ASCII characters. -/
def ascii (t : Text) : Str := t.map UInt8.ofNat

/-- The entries of a dictionary as bytes. -/
def pairs (d : Dict) : List (Str × Str) := d.map fun e => (ascii e.1, ascii e.2)

/-- A dictionary that can be sent: every key once; the keys are valid, the values ASCII texts without NUL. -/
def SendableDict (d : Dict) : Prop := (d.map Prod.fst).Nodup ∧ ∀ e ∈ d, (∀ c ∈ e.1 ++ e.2, c < 128) ∧ ValidKey (ascii e.1) ∧ Plain (ascii e.2)

/-- The dictionaries have the same entries, in any order. -/
def SameDict (d d' : Dict) : Prop := (d'.map Prod.fst).Nodup ∧ ∀ k v, (k, v) ∈ d ↔ (k, v) ∈ d'

/-- What the two programs do in one exchange: the client calls `initialize` (`start`) or `frame`, the server `wait` and then `status`. -/
structure PyExchange where
  start : Bool
  images : List (Text × Image)
  objects : List (Region × Dict)
  properties : Dict
  reply : List (Region × Dict)
  replyProperties : Dict

/-- What the programs get. -/
structure PyResult where
  /-- from `Server.wait` -/
  request : Request
  /-- from `Client.initialize` or `Client.frame` -/
  answer : List (Option Region × Dict)

/-- One exchange. An exception on either side ends it. `none`: the server's `wait` has not ended after `fuel` messages. -/
def pyExchange (clientEnv serverEnv : Env) (fuel : Nat) (c s : Handle) (e : PyExchange) : Option (Outcome (Except Failure PyResult × Handle × Handle)) :=
  match clientSend clientEnv e.start c e.images (some e.objects) e.properties with
  | .ok (.error x, c₁) => some (.ok (.error (.exc x), c₁, s))
  | .ok (.ok _, c₁) => (serverWait serverEnv fuel (deliver c c₁ s)).map fun o => o.bind fun (request, s₁) => match request with
    | .error x => .ok (.error (.exc x), c₁, s₁)
    | .ok request => (serverStatus serverEnv s₁ e.reply e.replyProperties).bind fun (status, s₂) => match status with
      | .error x => .ok (.error (.exc x), c₁, s₂)
      | .ok _ => (clientReceive clientEnv (deliver s₁ s₂ c₁)).map fun (answer, c₂) => (answer.map fun answer => ⟨request, answer⟩, c₂, s₂)
  | .abort => some .abort
  | .ub => some .ub

/-- The image of a channel in a dictionary. -/
def imageAt (images : List (Text × Image)) (channel : Text) : Option Image := (images.find? fun e => e.1 = channel).map Prod.snd

/-- Objects as they are given to the library. -/
def plainObjects (l : List (Region × Dict)) : List (Region × List (Str × Str)) := l.map fun o => (o.1, pairs o.2)

/-- The exchange as it is for the library. -/
def PyExchange.plain (e : PyExchange) : Trax.Spec.Exchange :=
  ⟨e.start, [imageAt e.images t!"color", imageAt e.images t!"depth", imageAt e.images t!"ir"], plainObjects e.objects, pairs e.properties, plainObjects e.reply⟩

/-- The number of objects after an exchange. -/
def PyExchange.count (e : PyExchange) (n : Nat) : Nat := if e.start then e.objects.length else n + e.objects.length

/-- A proper exchange: one that is proper for the library, with texts that can be sent and regions that are not broken. -/
structure PyExchange.Proper (clientEnv : Env) (c s : Handle) (n : Nat) (e : PyExchange) (sent : List (Region × List (Str × Str))) : Prop where
  library : e.plain.Proper clientEnv c s n sent
  regions : ∀ o ∈ e.objects ++ e.reply, WellFormed o.1
  texts : ∀ o ∈ e.objects ++ e.reply, SendableDict o.2
  properties : SendableDict e.properties
  replyProperties : GoodDict e.replyProperties

/-- The dictionary of images has the images of the channels of the tracker. -/
def ImagesShown (channels : UInt32) (images images' : List (Text × Image)) : Prop :=
  images'.map Prod.fst = ([(t!"color", 1), (t!"depth", 2), (t!"ir", 4)].filter fun c : Text × UInt32 => channels &&& c.2 ≠ 0).map Prod.fst ∧
    ∀ name img', (name, img') ∈ images' → ∃ img, imageAt images name = some img ∧ ImageArrives img img'

/-- The list has these objects, in this order, with their properties; `sent` are the regions as they are sent. -/
def ObjectsShown (sent : List Region) (objects : List (Region × Dict)) (shown : List (Option Region × Dict)) : Prop :=
  List.Forall₂ (fun (o : Region × Dict) (x : Option Region × Dict) => SameDict o.2 x.2) objects shown ∧
    List.Forall₂ (fun (r : Region) (x : Option Region × Dict) => ∃ r', x.1 = some r' ∧ Arrives r r') sent shown

/-- What should be seen. -/
structure PyExchange.Seen (e : PyExchange) (s : Handle) (n : Nat) (sent : List (Region × List (Str × Str))) (o : PyResult) : Prop where
  type : o.request.type = if e.start = true ∨ (n = 0 ∧ e.objects ≠ []) then t!"initialize" else t!"frame"
  images : ∃ l, o.request.images = some l ∧ ImagesShown s.metadata.channels e.images l
  objects : (o.request.objects = none ∧ e.objects = []) ∨ ∃ l, o.request.objects = some l ∧ e.objects ≠ [] ∧ ObjectsShown (sent.map Prod.fst) e.objects l
  properties : SameDict e.properties (propDict o.request.properties)
  answer : ObjectsShown (e.reply.map Prod.fst) e.reply o.answer

/-! ## Sessions -/

/-- A history of exchanges; it ends with the first exception. -/
def pySession (clientEnv serverEnv : Env) (fuel : Nat) (c s : Handle) : List PyExchange → Option (Outcome (Except Failure (List PyResult) × Handle × Handle))
  | [] => some (.ok (.ok [], c, s))
  | e :: es =>
    match pyExchange clientEnv serverEnv fuel c s e with
    | some (.ok (.ok o, c', s')) => (pySession clientEnv serverEnv fuel c' s' es).map fun r => r.map fun (os, c'', s'') => (os.map (o :: ·), c'', s'')
    | some (.ok (.error x, c', s')) => some (.ok (.error x, c', s'))
    | some .abort => some .abort
    | some .ub => some .ub
    | none => none

/-- All exchanges are proper, when `n` objects are tracked at the beginning. -/
def ProperPySession (clientEnv : Env) (c s : Handle) : Nat → List (PyExchange × List (Region × List (Str × Str))) → Prop
  | _, [] => True
  | n, (e, sent) :: es => e.Proper clientEnv c s n sent ∧ ProperPySession clientEnv c s (e.count n) es

/-- What should be seen in a history. -/
def PySessionSeen (s : Handle) : Nat → List (PyExchange × List (Region × List (Str × Str))) → List PyResult → Prop
  | _, [], os => os = []
  | n, (e, sent) :: es, os => ∃ o os', os = o :: os' ∧ e.Seen s n sent o ∧ PySessionSeen s (e.count n) es os'

/-- The number of objects after a history. -/
def pyCountAfter : Nat → List PyExchange → Nat
  | n, [] => n
  | n, e :: es => pyCountAfter (e.count n) es

end Trax.Py.Spec
