import Verif.Model.Message

/-!
# Histories of reads and writes

How the library uses the message layer: `trax_properties_create` before each
`read_message` (`src/trax.c`, for example 585–590), one `write_message` after the other.
-/

namespace Trax

/-- A property object after a sequence of `trax_properties_set` calls. -/
def Properties.ofPairs (kvs : List (Str × Str)) : Properties :=
  kvs.foldl (fun p kv => p.set kv.1 kv.2) Properties.create

/-- A message as given to `write_message`. -/
structure OutMsg where
  type : MsgType
  args : List Str
  /-- the properties, as the sequence of `trax_properties_set` calls that made them -/
  kvs : List (Str × Str)
deriving DecidableEq, Repr

/-- What a reader gets from one `read_message` call. -/
structure InMsg where
  type : Option MsgType
  args : List Str
  props : Properties
deriving DecidableEq, Repr

/-- A sequence of `write_message` calls on one stream. -/
def Writer.writeAll (w : Writer) (ms : List OutMsg) : Writer :=
  ms.foldl (fun w m => w.writeMessage m.type m.args (Properties.ofPairs m.kvs)) w

/-- `n` successive `read_message` calls, each with a new property object. -/
def readSeq : Nat → Option MsgType → List InEv → List InMsg
  | 0, _, _ => []
  | n + 1, mt, inp =>
    let R := readMessage mt Properties.create inp
    ⟨R.mtype, R.args, R.props⟩ :: readSeq n R.mtype R.rest

/-- The same on chunked input, together with the text given to the logger by each call. -/
def readSeqChunked : Nat → Option MsgType → ChunkIn → List (InMsg × Str)
  | 0, _, _ => []
  | n + 1, mt, s =>
    let R := readMessageChunked mt Properties.create s
    (⟨R.mtype, R.args, R.props⟩, R.log) :: readSeqChunked n R.mtype R.rest

end Trax
