import Verif.Model.Message
import Verif.Model.Python

/-!
# Model of loggers: the calls of the log function, the log file of C and the loggers of the Python package

`src/message.c` passes the traffic of a handle to a function of the user in pieces. The C library has one such function of its own,
which writes to a `FILE`; the Python package has a class. A buffered file is what is on the disk and what waits in the buffer: the C library and Python
may move the first part of the buffer to the disk at any write, which is given for each write (`spill`). Interrupted or failing writes to the disk
are not modelled.
-/

namespace Trax

/-- A call of the log function: a piece of text (`LOG_BUFFER`, `LOG_CHAR`, `src/message.h` 68–69), or the call with NULL. -/
inductive LogCall where
  | text (s : Str)
  | flush
  deriving DecidableEq, Repr

/-- The calls of `read_message` that logged `log`: one for each character, and NULL at the end (`src/message.c` 319, 614). -/
def readCalls (log : Str) : List LogCall := log.map (fun c => .text [c]) ++ [.flush]

namespace Writer

/-- The call of `write_buffer` (`src/message.c` 625–662). -/
def bufferCalls (w : Writer) (buf : Str) : List LogCall :=
  if buf.length < 1 then [] else if (w.writeBuffer buf).2 then [.text buf] else []

/-- The calls of a sequence of `write_buffer` that stops at the first failure. -/
def piecesCalls (w : Writer) : List Str → List LogCall
  | [] => []
  | p :: ps => w.bufferCalls p ++ if (w.writeBuffer p).2 then (w.writeBuffer p).1.piecesCalls ps else []

/-- The calls of `write_buffer_escaped` (`src/message.c` 664–692). -/
def escapedCalls (w : Writer) (buf : Str) : List LogCall := if buf.length < 1 then [] else w.piecesCalls (escPieces [] buf)

/-- The call of `OUTPUT_STRING` (`src/message.c` 699). -/
def stringCalls (w : Writer) (s : Str) : List LogCall := w.bufferCalls (cstr s)

/-- The calls of the argument loop (`src/message.c` 756–761). -/
def argCalls (w : Writer) (a : Str) : List LogCall :=
  w.stringCalls b!"\"" ++ (w.outString b!"\"").escapedCalls (cstr a) ++ ((w.outString b!"\"").outEscaped a).stringCalls b!"\" "

/-- The calls of `__output_properties` (`src/message.c` 707–718). -/
def propertyCalls (w : Writer) (kv : Str × Str) : List LogCall :=
  let w₁ := w.outString b!"\""
  let w₂ := w₁.outString kv.1
  let w₃ := w₂.outString b!"="
  w.stringCalls b!"\"" ++ w₁.stringCalls kv.1 ++ w₂.stringCalls b!"=" ++ w₃.escapedCalls (cstr kv.2) ++ (w₃.outEscaped kv.2).stringCalls b!"\" "

/-- The calls of a loop. -/
def loopCalls {α : Type} (out : Writer → α → Writer) (calls : Writer → α → List LogCall) : Writer → List α → List LogCall
  | _, [] => []
  | w, a :: l => calls w a ++ loopCalls out calls (out w a) l

/-- The calls of `write_message` (`src/message.c` 720–778), with NULL at the end (776). -/
def messageCalls (w : Writer) (t : MsgType) (args : List Str) (props : Properties) : List LogCall :=
  let w₁ := w.outString traxPrefix
  let w₂ := w₁.outString t.name
  let w₃ := w₂.outString b!" "
  let w₄ := args.foldl outArg w₃
  let w₅ := props.enumerate.foldl outProperty w₄
  w.stringCalls traxPrefix ++ w₁.stringCalls t.name ++ w₂.stringCalls b!" " ++ loopCalls outArg argCalls w₃ args ++
    loopCalls outProperty propertyCalls w₄ props.enumerate ++ w₅.stringCalls b!"\n" ++ [.flush]

end Writer

/-! ## The log file of the C library -/

/-- A file opened for writing: what is on the disk, and what is in the buffer. -/
structure BufFile where
  disk : Str
  pending : Str
  deriving DecidableEq, Repr

namespace BufFile

/-- `fwrite`: of what is in the buffer then, the first `spill` bytes go to the disk. -/
def write (f : BufFile) (s : Str) (spill : Nat) : BufFile := ⟨f.disk ++ (f.pending ++ s).take spill, (f.pending ++ s).drop spill⟩

/-- `fflush`, and what `fclose` does before the file is closed. -/
def flush (f : BufFile) : BufFile := ⟨f.disk ++ f.pending, []⟩

end BufFile

/-- `file_logger` (`src/trax.c` 81–88) with a file. -/
def fileLogger (f : BufFile) (call : LogCall) (spill : Nat) : BufFile := match call with
  | .text s => f.write s spill
  | .flush => f.flush

/-- The file after a sequence of calls; `spill` is given for each of them. -/
def fileLoggerRun (spill : Nat → Nat) : Nat → List LogCall → BufFile → BufFile
  | _, [], f => f
  | i, c :: cs, f => fileLoggerRun spill (i + 1) cs (fileLogger f c (spill i))

/-- A message that a handle reads or writes: the state of the stream before, and what is written. -/
inductive LogStep where
  | read (mtype : Option MsgType) (props : Properties) (input : List InEv)
  | write (w : Writer) (t : MsgType) (args : List Str) (props : Properties)
  deriving DecidableEq, Repr

/-- The calls of the log function for a message (`src/message.c` 302–778). -/
def LogStep.calls : LogStep → List LogCall
  | .read mtype props input => readCalls (readMessage mtype props input).log
  | .write w t args props => w.messageCalls t args props

/-! ## The loggers of the Python package -/

namespace Py

/-- What `ctypes` makes of the pointer of a call, as `c_char_p`: the bytes up to the first NUL, wherever it is. `after` is the memory behind the piece. -/
def charP (call : LogCall) (after : Str) : Option Str := match call with
  | .text s => some (cstr (s ++ after))
  | .flush => none

/-- The length that goes with the pointer (`src/message.h` 68–69). -/
def LogCall.length : LogCall → Nat
  | .text s => s.length
  | .flush => 0

/-- The message that `Logger.__call__` passes to `handle` (`support/python/trax/__init__.py` 74–88); none when the buffer is empty or `None`, and
when it cannot be decoded (the exception is printed and ignored). -/
def loggerMessage (call : LogCall) (after : Str) : Option Text := match charP call after with
  | none => none
  | some b => if b = [] then none else decode (b.take (LogCall.length call))

/-- How the method `handle` of a logger ends. -/
inductive Handled where
  | done
  | interrupt
  | error
  deriving DecidableEq, Repr

/-- A logger: the messages passed to `handle`, and the attribute `_interrupted`. -/
structure Logger where
  messages : List Text
  interrupted : Bool
  deriving DecidableEq, Repr

/-- `Logger.__call__` (`support/python/trax/__init__.py` 74–91). -/
def Logger.call (l : Logger) (c : LogCall) (after : Str) (ends : Handled) : Logger := match loggerMessage c after with
  | none => l
  | some m => ⟨l.messages ++ [m], l.interrupted || ends = .interrupt⟩

/-- A logger after a sequence of calls; the memory behind the pieces and the end of `handle` are given for each of them. -/
def Logger.run (after : Nat → Str) (ends : Nat → Handled) : Nat → List LogCall → Logger → Logger
  | _, [], l => l
  | i, c :: cs, l => Logger.run after ends (i + 1) cs (l.call c (after i) (ends i))

/-- `Logger.__init__` (`support/python/trax/__init__.py` 70–72). -/
def Logger.new : Logger := ⟨[], false⟩

/-- `os.path.dirname`: what is before the last slash, without the slashes at its end unless there is nothing else. -/
def dirname (p : Text) : Text :=
  let head := (p.reverse.dropWhile (· ≠ 47)).reverse
  if head.all (· = 47) then head else (head.reverse.dropWhile (· = 47)).reverse

/-- `FileLogger.__init__` (`support/python/trax/__init__.py` 119–127). `fs` is the file system, of any kind; `makedirs` tells how `os.makedirs` changes it (`none` if it
raises), `create` whether the file can be made; `os.makedirs('')` raises `FileNotFoundError`. -/
def fileLoggerNew {σ : Type} (makedirs : Text → σ → Option σ) (create : Text → σ → Bool) (fs : σ) (filename : Text) : Option BufFile :=
  if dirname filename = [] then none
  else (makedirs (dirname filename) fs).bind fun fs => if create filename fs then some ⟨[], []⟩ else none

/-- The file of a `FileLogger` after a sequence of calls (`support/python/trax/__init__.py` 129–135): `handle` writes the message, in UTF-8. -/
def fileHandle (after : Nat → Str) (spill : Nat → Nat) : Nat → List LogCall → BufFile → BufFile
  | _, [], f => f
  | i, c :: cs, f => fileHandle after spill (i + 1) cs (match loggerMessage c (after i) with
    | none => f
    | some m => f.write ((Text.encode m).getD []) (spill i))

end Py

end Trax
