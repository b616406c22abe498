import Verif.Model.CMemory
import Mathlib.Algebra.BigOperators.Group.Multiset.Basic

/-!
# The blocks that C programs own and those that they lose

First which blocks belong to the objects of the library; then what is lost in the histories of C146, said in terms of
the messages and the calls.
-/

namespace Trax
namespace CMem

/-- No block is taken twice and the next one is new. -/
def Heap.OK (m : Heap) : Prop := m.live.Nodup ∧ ∀ p ∈ m.live, p < m.next

/-- The block behind a pointer that may be NULL. -/
def opt : Option Ptr → Multiset Nat
  | none => 0
  | some p => {p}

/-- The blocks of a list of texts. -/
def TextsAt.blocks (l : TextsAt) : Multiset Nat := {l.self} + {l.array} + (l.texts : Multiset Nat)

/-- The blocks of an object. -/
def entryBlocks (e : Option Ptr × Ptr) : Multiset Nat := opt e.1 + {e.2}

/-- The blocks of the objects of a list. -/
def entriesBlocks (es : List (Option Ptr × Ptr)) : Multiset Nat := (es.map entryBlocks).sum

/-- The blocks of an object list. -/
def ObjectsAt.blocks (l : ObjectsAt) : Multiset Nat := {l.self} + {l.regions} + {l.properties} + entriesBlocks l.entries

/-- All regions are there. -/
def Full (es : List (Option Ptr × Ptr)) : Prop := ∀ e ∈ es, e.1.isSome

/-- The blocks of images. -/
def imagesBlocks (ps : List (Option Ptr)) : Multiset Nat := (ps.map opt).sum

/-- The blocks of an image list. -/
def ImagesAt.blocks (l : ImagesAt) : Multiset Nat := {l.self} + imagesBlocks l.images

/-- The blocks of a handle. -/
def HandleAt.blocks (p : HandleAt) : Multiset Nat := {p.self} + {p.stream} + {p.metadata} + opt p.error

/-- The blocks of a message that was read. -/
def Received.blocks (r : Received) : Multiset Nat := {r.props} + r.args.blocks

/-- The blocks of an image list that may be NULL. -/
def imagesOpt : Option ImagesAt → Multiset Nat
  | none => 0
  | some l => l.blocks

/-- The blocks of an object list that may be NULL. -/
def objectsOpt : Option ObjectsAt → Multiset Nat
  | none => 0
  | some l => l.blocks

namespace Spec

/-- How many of the messages that the server reads while it waits take all objects away: initialize messages without
arguments. The wait goes on after such a message, after an initialize message with a region that can be read, and after
a hello or state message; any other message, or the end of the connection, ends it. -/
def resets : Nat → Stream → Nat
  | 0, _ => 0
  | n + 1, s =>
    match s.read.1.mtype, s.read.1.args with
    | some .initialize, [] => resets n s.read.2 + 1
    | some .initialize, [text] =>
      match Region.parse text with
      | .ok parsed => if parsed.ret = 0 then 0 else resets n s.read.2
      | _ => 0
    | some .hello, _ => resets n s.read.2
    | some .state, _ => resets n s.read.2
    | _, _ => 0

/-- The tracker takes masks but no polygons, and the region is a polygon. -/
def masked (formats : UInt32) : Option Region → Bool
  | some (.polygon _) => decide (formats &&& 8 ≠ 0) && decide (formats &&& 4 = 0)
  | _ => false

/-- Every channel that the tracker wants has its image. -/
def complete (channels : UInt32) (images : ImageList) : Bool :=
  (decide (channels &&& 1 = 0) || (images[0]?.join).isSome) && (decide (channels &&& 2 = 0) || (images[1]?.join).isSome) &&
    (decide (channels &&& 4 = 0) || (images[2]?.join).isSome)

/-- The number of blocks that a call loses. -/
def lost (fuel : Nat) (h : Handle) : Handle.Call → Nat
  | .serverWaitMot _ => if h.terminated then 2 else 3 * resets fuel h.stream
  | .clientFrame _ (some objects) _ =>
    if h.terminated ∨ h.version < 4 ∨ (h.objects + objects.length > 1 ∧ h.metadata.flags &&& 1 = 0) then 0
    else objects.countP fun e => masked h.metadata.regions e.1
  | .clientInitialize images objects _ =>
    if h.terminated ∨ (objects.length > 1 ∧ h.metadata.flags &&& 1 = 0) then 0
    else if h.version < 4 ∧ ¬ complete h.metadata.channels images then 0
    else (if h.version < 4 then objects.take 1 else objects).countP fun e => masked h.metadata.regions e.1
  | _ => 0

/-- The number of blocks that a history of calls loses. -/
def lostAll (env : Env) (fuel : Nat) : Handle → List Handle.Call → Nat
  | _, [] => 0
  | h, c :: cs =>
    lost fuel h c +
      match h.call env fuel c with
      | some (.ok (_, h')) => lostAll env fuel h' cs
      | _ => 0

end Spec
end CMem
end Trax
