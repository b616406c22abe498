import Verif.Model.Bytes
import Verif.Model.Outcome

/-!
# The line buffer of the tracker process log (`support/client/client.cpp` 150–191)

The client collects what the tracker prints in a fixed buffer and passes it to the log stream line
by line. There is one buffer for each of the two output streams of the tracker; the model is about
one of them. The threads that fill and empty the buffers are not modelled: a history is the sequence
of calls made on one buffer.
-/

namespace Trax

/-- `LOGGER_BUFFER_SIZE` (`support/client/client.cpp` 81). -/
def loggerBufferSize : Nat := 1024

/-- `line_buffer` (`support/client/client.cpp` 150–156). `content` is the part of the array `buffer`
before `position` (so `position` is the length of `content`; the rest of the array is never read). -/
structure LineBuffer where
  content : Str
  length : Int
  deriving DecidableEq, Repr

namespace LineBuffer

/-- `RESET_LINE_BUFFER` (`support/client/client.cpp` 158). -/
def reset : LineBuffer := ⟨[], 0⟩

/-- `buffer.buffer[buffer.position++] = chr` (`support/client/client.cpp` 167, 169): a write outside
of the array is undefined behaviour. -/
def store (b : LineBuffer) (chr : Byte) : Outcome LineBuffer :=
  if b.content.length < loggerBufferSize then .ok { b with content := b.content ++ [chr] } else .ub

/-- `line_buffer_push` (`support/client/client.cpp` 160–177). The result is the value returned (flush
now) and the new state. The increment of the `int` is undefined behaviour at the largest `int`. -/
def push (b : LineBuffer) (chr : Byte) (truncate : Int) : Outcome (Bool × LineBuffer) :=
  if ¬ InInt32 (b.length + 1) then .ub else
  let length := b.length + 1
  let b : LineBuffer := { b with length := length }
  (if length ≥ truncate ∧ truncate > 0 then
      (if length = truncate then b.store ch%'\n' else .ok b)
    else b.store chr).map fun b =>
  let flush := b.content.length == loggerBufferSize - 1 || chr == ch%'\n'
  (flush, if chr = ch%'\n' then { b with length := 0 } else b)

/-- `line_buffer_flush` (`support/client/client.cpp` 179–191). `out` says whether there is a stream;
the first component of the result is what is written to it. The terminating NUL is stored at
`position`, which is undefined behaviour when this is outside of the array. -/
def flush (b : LineBuffer) (out : Bool) : Outcome (Str × LineBuffer) :=
  if b.content.length < loggerBufferSize then .ok (if out then b.content else [], { b with content := [] }) else .ub

end LineBuffer

/-- What happens to a line buffer. -/
inductive LogEvent where
  /-- A byte printed by the tracker (`client_logger` 660–672, `logger_loop` 619–626 and 630–636). -/
  | byte (c : Byte)
  /-- An explicit flush (`client_logger` 650–656, `logger_loop` when nothing can be read, 621–624). -/
  | idle
  deriving DecidableEq, Repr

/-- One event: the byte is stored, and the buffer is flushed when `line_buffer_push` says so
(`support/client/client.cpp` 618–641, 651–681). -/
def logStep (truncate : Int) (out : Bool) (b : LineBuffer) : LogEvent → Outcome (Str × LineBuffer)
  | .byte c => (b.push c truncate).bind fun (full, b) => if full then b.flush out else .ok ([], b)
  | .idle => b.flush out

/-- A sequence of events, with everything written to the log stream. -/
def logRun (truncate : Int) (out : Bool) (b : LineBuffer) : List LogEvent → Outcome (Str × LineBuffer)
  | [] => .ok ([], b)
  | e :: es => (logStep truncate out b e).bind fun (w, b) =>
      (logRun truncate out b es).map fun (w', b) => (w ++ w', b)

end Trax
