import Verif.Model.Properties

/-!
# The message layer (`src/message.c`)

Byte-level model of the message reader and writer.

Simplifications: `malloc` succeeds; sockets and files are not distinguished (the code
treats them alike except for the system call used); the log callback receives
characters one by one (flush calls `LOG_BUFFER(log, NULL, 0)` are not recorded).
-/

namespace Trax

/-- The message types (`include/trax.h`: `TRAX_HELLO` 1, `TRAX_INITIALIZE` 2,
`TRAX_FRAME` 3, `TRAX_QUIT` 4, `TRAX_STATE` 5). The value -1 (`TRAX_ERROR`) is
represented by `none : Option MsgType`. -/
inductive MsgType where
  | hello | initialize | frame | quit | state
deriving DecidableEq, Repr

/-- `TRAX_PREFIX` (`src/message.h` 4). -/
def traxPrefix : Str := b!"@@TRAX:"

/-- `__is_valid_key` (`src/message.c` 71–81), with `MAX_KEY_LENGTH` 64. -/
def isValidKey (k : Str) : Bool :=
  if k.length > 64 then false
  else k.all fun c => isAlnum c || c == ch%'.' || c == ch%'_'

/-- `__parse_message_type` (`src/message.c` 83–93). -/
def parseMessageType (s : Str) : Option MsgType :=
  if eqNoCase s b!"hello" then some .hello
  else if eqNoCase s b!"initialize" then some .initialize
  else if eqNoCase s b!"state" then some .state
  else if eqNoCase s b!"status" then some .state
  else if eqNoCase s b!"frame" then some .frame
  else if eqNoCase s b!"quit" then some .quit
  else none

/-! ## Reader -/

/-- The parser states (`src/message.c` 5–16); `pfx i` stands for the negative state
`-prefix_length + i`, i.e. `i` characters of the prefix have been matched. -/
inductive PState where
  | pfx (i : Nat)
  | type | spaceExpect | space
  | uKey | uVal | uEscKey | uEscVal
  | qKey | qVal | qEscKey | qEscVal
  | pass
deriving DecidableEq, Repr

/-- `struct input_cache` (`src/message.h` 28–33) together with the out-parameters of
`read_message` (`arguments`, `properties`) and the characters given to the logger. -/
structure Reader where
  mtype : Option MsgType
  complete : Bool
  st : PState
  key : Str
  val : Str
  args : List Str
  props : Properties
  log : Str
deriving DecidableEq, Repr

namespace Reader

/-- `buffer_extract` followed by `list_append(arguments, key_tmp)`
(`src/buffer.h` 54–59, 165–175): the argument is copied up to its first NUL. -/
def addArg (r : Reader) : Reader := { r with args := r.args ++ [cstr r.key] }

/-- `trax_properties_set(properties, key_tmp, value_tmp)` on the extracted buffers. -/
def addProp (r : Reader) : Reader := { r with props := r.props.set r.key r.val }

/-- Both `buffer_reset` calls. -/
def resetBufs (r : Reader) : Reader := { r with key := [], val := [] }

/-- What the code does on a broken escape sequence or after a bad character:
skip the line and forget the type (`src/message.c` 477–483, 496–501, 560–566, 579–584). -/
def abandon (r : Reader) : Reader := { r with st := .pass, mtype := none, key := [], val := [] }

/-- `case PARSE_STATE_TYPE` (`src/message.c` 322–366). -/
def stepType (r : Reader) (c : UInt8) : Reader :=
  if isAlnum c then { r with key := r.key ++ [c] }
  else if c = ch%' ' then
    match parseMessageType (cstr r.key) with
    | none => { r with mtype := none, st := .pass }.resetBufs
    | some t => { r with mtype := some t, st := .space }.resetBufs
  else if c = ch%'\n' then
    match parseMessageType (cstr r.key) with
    | none => { r with mtype := none, st := .pass }.resetBufs
    | some t => { r with mtype := some t, complete := true }.resetBufs
  else { r with st := .pass, key := [] }

/-- `case PARSE_STATE_SPACE_EXPECT` (`src/message.c` 367–383). The offending character
is left in the key buffer. -/
def stepSpaceExpect (r : Reader) (c : UInt8) : Reader :=
  if c = ch%' ' then { r with st := .space }
  else if c = ch%'\n' then { r with complete := true }
  else { r with mtype := none, st := .pass, key := [c], val := [] }

/-- `case PARSE_STATE_SPACE` (`src/message.c` 384–403). -/
def stepSpace (r : Reader) (c : UInt8) : Reader :=
  if c = ch%' ' ∨ c = ch%'\r' then r
  else if c = ch%'\n' then { r with complete := true }
  else if c = ch%'"' then { r with st := .qKey, key := [], val := [] }
  else { r with st := .uKey, key := [c], val := [] }

/-- `case PARSE_STATE_UNQUOTED_KEY` (`src/message.c` 404–436). -/
def stepUKey (r : Reader) (c : UInt8) : Reader :=
  if c = ch%'\\' then { r with st := .uEscKey }
  else if c = ch%'\n' then { r.addArg with complete := true }
  else if c = ch%' ' then { r.addArg with st := .space, key := [] }
  else if c = ch%'=' then
    if isValidKey r.key then { r with st := .uVal } else { r with key := r.key ++ [c] }
  else { r with key := r.key ++ [c] }

/-- `case PARSE_STATE_UNQUOTED_VALUE` (`src/message.c` 437–468). -/
def stepUVal (r : Reader) (c : UInt8) : Reader :=
  if c = ch%'\\' then { r with st := .uEscVal }
  else if c = ch%' ' then { r.addProp with st := .space, key := [], val := [] }
  else if c = ch%'\n' then { r.addProp with complete := true, key := [], val := [] }
  else { r with val := r.val ++ [c] }

/-- `case PARSE_STATE_UNQUOTED_ESCAPE_KEY` and `..._QUOTED_ESCAPE_KEY`
(`src/message.c` 469–487, 552–570); `back` is the state to return to. -/
def stepEscKey (back : PState) (r : Reader) (c : UInt8) : Reader :=
  if c = ch%'n' then { r with key := r.key ++ [ch%'\n'], st := back }
  else if c ≠ ch%'\n' then { r with key := r.key ++ [c], st := back }
  else r.abandon

/-- `case PARSE_STATE_UNQUOTED_ESCAPE_VALUE` and `..._QUOTED_ESCAPE_VALUE`
(`src/message.c` 488–505, 571–588). -/
def stepEscVal (back : PState) (r : Reader) (c : UInt8) : Reader :=
  if c = ch%'n' then { r with val := r.val ++ [ch%'\n'], st := back }
  else if c ≠ ch%'\n' then { r with val := r.val ++ [c], st := back }
  else r.abandon

/-- `case PARSE_STATE_QUOTED_KEY` (`src/message.c` 507–530). -/
def stepQKey (r : Reader) (c : UInt8) : Reader :=
  if c = ch%'\\' then { r with st := .qEscKey }
  else if c = ch%'"' then { r.addArg with st := .spaceExpect }
  else if c = ch%'=' then
    if isValidKey r.key then { r with st := .qVal } else { r with key := r.key ++ [c] }
  else { r with key := r.key ++ [c] }

/-- `case PARSE_STATE_QUOTED_VALUE` (`src/message.c` 531–551). -/
def stepQVal (r : Reader) (c : UInt8) : Reader :=
  if c = ch%'\\' then { r with st := .qEscVal }
  else if c = ch%'"' then { r.addProp with st := .spaceExpect, key := [], val := [] }
  else { r with val := r.val ++ [c] }

/-- `case PARSE_STATE_PASS` (`src/message.c` 590–596). -/
def stepPass (r : Reader) (c : UInt8) : Reader :=
  if c = ch%'\n' then { r with st := .pfx 0 } else r

/-- `default:` — matching the prefix (`src/message.c` 597–609). After the last prefix
character the state counter reaches 0, which is `PARSE_STATE_TYPE`. -/
def stepPrefix (i : Nat) (r : Reader) (c : UInt8) : Reader :=
  if traxPrefix[i]? = some c then
    { r with st := if i + 1 = traxPrefix.length then .type else .pfx (i + 1) }
  else { r with st := if c = ch%'\n' then .pfx 0 else .pass }

/-- The `switch` of `read_message` (`src/message.c` 321–611) on one character. -/
def step (r : Reader) (c : UInt8) : Reader :=
  match r.st with
  | .type => r.stepType c
  | .spaceExpect => r.stepSpaceExpect c
  | .space => r.stepSpace c
  | .uKey => r.stepUKey c
  | .uVal => r.stepUVal c
  | .uEscKey => r.stepEscKey .uKey c
  | .uEscVal => r.stepEscVal .uVal c
  | .qKey => r.stepQKey c
  | .qVal => r.stepQVal c
  | .qEscKey => r.stepEscKey .qKey c
  | .qEscVal => r.stepEscVal .qVal c
  | .pass => r.stepPass c
  | .pfx i => r.stepPrefix i c

/-- `LOG_CHAR` followed by the `switch` (`src/message.c` 319–321). -/
def feed (r : Reader) (c : UInt8) : Reader := { r with log := r.log ++ [c] }.step c

end Reader

/-- One event on the input of a stream: a byte, or a moment at which `read`/`recv`
returns 0 or -1. The end of an event list stands for "fails from now on". -/
inductive InEv where
  | byte (b : UInt8)
  | fail
deriving DecidableEq, Repr

/-- `read_character` (`src/message.c` 266–300) on an unchunked input: the `char` is
returned as an `int`, hence bytes from 128 on are negative and the caller cannot
tell them from a failure; `none` stands for any negative result. -/
def InEv.char : InEv → Option UInt8
  | .byte b => if b.toNat < 128 then some b else none
  | .fail => none

/-- `val < 0` in `read_message` (`src/message.c` 313–317): leave the loop if no type
has been read, otherwise process a synthetic newline as the last character. -/
def Reader.onFail (r : Reader) : Reader :=
  if r.mtype = none then r else Reader.feed { r with complete := true } ch%'\n'

/-- The `while` loop of `read_message` (`src/message.c` 308–612). -/
def readLoop (r : Reader) : List InEv → Reader × List InEv
  | [] => if r.complete then (r, []) else (r.onFail, [])
  | e :: t =>
    if r.complete then (r, e :: t)
    else match e.char with
      | none => (r.onFail, t)
      | some c => readLoop (r.feed c) t

/-- What a call of `read_message` gives back, with the input that is left. -/
structure ReadResult where
  mtype : Option MsgType
  args : List Str
  props : Properties
  log : Str
  rest : List InEv
deriving DecidableEq, Repr

/-- The state in which `read_message` starts: everything but the message type was
reset at the end of the previous call or by `initialize_cache`
(`src/message.c` 95–104, 306, 616–619). -/
def Reader.start (mtype : Option MsgType) (props : Properties) : Reader :=
  { mtype, complete := false, st := .pfx 0, key := [], val := [], args := [], props, log := [] }

/-- `read_message` (`src/message.c` 302–623). `mtype` is the value left in
`stream->input.message_type` by the previous call (-1 for a new stream); the result's
`mtype` is both the return value and the value left for the next call. `props` is the
property object passed by the caller; it is not cleared. -/
def readMessage (mtype : Option MsgType) (props : Properties) (inp : List InEv) : ReadResult :=
  let (r, rest) := readLoop (Reader.start mtype props) inp
  { mtype := r.mtype, args := r.args, props := r.props, log := r.log, rest }

/-! ## Chunked input -/

/-- The result of one `read`/`recv` call: some bytes (none: connection closed) or an error. -/
inductive ReadRes where
  | data (bs : List UInt8)
  | error
deriving DecidableEq, Repr

/-- The receive buffer (`stream->buffer[buffer_position .. buffer_length)`) and the
results that future `read` calls will have; after the end of the list they return 0. -/
structure ChunkIn where
  buf : List UInt8
  script : List ReadRes
deriving DecidableEq, Repr

/-- `char` to `int` conversion at `return chr` (`src/message.c` 294–298). -/
def signedChar (b : UInt8) : Option UInt8 := if b.toNat < 128 then some b else none

/-- `read_character` (`src/message.c` 266–300) with the receive buffer. The result is
`none` if it is negative. -/
def readCharacter (s : ChunkIn) : Option UInt8 × ChunkIn :=
  match s.buf with
  | b :: bs => (signedChar b, { s with buf := bs })
  | [] =>
    match s.script with
    | [] => (none, s)
    | .error :: t => (none, { s with script := t })
    | .data [] :: t => (none, { s with script := t })
    | .data (b :: bs) :: t => (signedChar b, { buf := bs, script := t })

/-- A measure for the loop below: every unsuccessful or successful
`readCharacter` on a non-empty input decreases it. -/
def ChunkIn.size (s : ChunkIn) : Nat :=
  s.buf.length + (s.script.map fun | .data bs => bs.length + 1 | .error => 1).sum

/-- The loop of `read_message` (`src/message.c` 308–612) on chunked input. `fuel` bounds the
number of iterations; `readMessageChunked` starts with enough of it. -/
def readLoopChunked (fuel : Nat) (r : Reader) (s : ChunkIn) : Reader × ChunkIn :=
  match fuel with
  | 0 => (r, s)
  | fuel + 1 =>
    if r.complete then (r, s)
    else match readCharacter s with
      | (none, s') => (r.onFail, s')
      | (some c, s') => readLoopChunked fuel (r.feed c) s'

/-- Result of a call on chunked input. -/
structure ChunkResult where
  mtype : Option MsgType
  args : List Str
  props : Properties
  log : Str
  rest : ChunkIn
deriving DecidableEq, Repr

/-- `read_message` (`src/message.c` 302–623) on chunked input. -/
def readMessageChunked (mtype : Option MsgType) (props : Properties) (s : ChunkIn) : ChunkResult :=
  let (r, rest) := readLoopChunked (s.size + 1) (Reader.start mtype props) s
  { mtype := r.mtype, args := r.args, props := r.props, log := r.log, rest }

/-! ## Writer -/

/-- The result of one `write`/`send` call: the number of bytes accepted, or -1. -/
inductive WriteRes where
  | ok (n : Nat)
  | fail
deriving DecidableEq, Repr

/-- The output side of a stream: results of the coming `write` calls; what happens
after that list (`dead`: every call fails, otherwise every call accepts everything);
the bytes sent so far and the characters given to the logger. -/
structure Writer where
  script : List WriteRes
  dead : Bool
  sent : Str
  log : Str
deriving DecidableEq, Repr

/-- The loop `while (cnt < len)` of `write_buffer` (`src/message.c` 632–654): remaining
script, bytes accepted, success. -/
def pump (dead : Bool) : List WriteRes → Str → List WriteRes × Str × Bool
  | s, [] => (s, [], true)
  | [], b :: bs => if dead then ([], [], false) else ([], b :: bs, true)
  | .fail :: s, _ :: _ => (s, [], false)
  | .ok n :: s, b :: bs =>
    let (s', sent, ok) := pump dead s ((b :: bs).drop n)
    (s', (b :: bs).take n ++ sent, ok)

/-- `write_buffer` (`src/message.c` 625–662): the log gets the buffer only if all of it
was sent. Result `false` stands for -1. -/
def Writer.writeBuffer (w : Writer) (buf : Str) : Writer × Bool :=
  if buf.length < 1 then (w, true)
  else
    let (s', sent, ok) := pump w.dead w.script buf
    ({ w with script := s', sent := w.sent ++ sent,
              log := if ok then w.log ++ buf else w.log }, ok)

/-- A sequence of `write_buffer` calls that stops at the first failure. -/
def Writer.writePieces (w : Writer) : List Str → Writer × Bool
  | [] => (w, true)
  | p :: ps =>
    match w.writeBuffer p with
    | (w', true) => w'.writePieces ps
    | (w', false) => (w', false)

/-- The characters that `write_buffer_escaped` escapes (`src/message.c` 672). -/
def isSpecial (c : UInt8) : Bool := c == ch%'"' || c == ch%'\\' || c == ch%'\n'

/-- The pieces that `write_buffer_escaped` writes (`src/message.c` 664–692); `pend` is
the scanned but unwritten part `buf[j..i)`. -/
def escPieces (pend : Str) : Str → List Str
  | [] => [pend]
  | c :: t =>
    if isSpecial c then
      if c = ch%'\n' then pend :: b!"\\" :: b!"n" :: escPieces [] t
      else pend :: b!"\\" :: escPieces [c] t
    else escPieces (pend ++ [c]) t

/-- `write_buffer_escaped` (`src/message.c` 664–692). -/
def Writer.writeEscaped (w : Writer) (buf : Str) : Writer × Bool :=
  if buf.length < 1 then (w, true) else w.writePieces (escPieces [] buf)

/-- `OUTPUT_STRING` (`src/message.c` 699): the result is ignored. -/
def Writer.outString (w : Writer) (s : Str) : Writer := (w.writeBuffer (cstr s)).1

/-- `OUTPUT_ESCAPED` (`src/message.c` 700): the result is ignored. -/
def Writer.outEscaped (w : Writer) (s : Str) : Writer := (w.writeEscaped (cstr s)).1

/-- `__output_properties` (`src/message.c` 707–718). The key is not escaped. -/
def Writer.outProperty (w : Writer) (kv : Str × Str) : Writer :=
  ((((w.outString b!"\"").outString kv.1).outString b!"=").outEscaped kv.2).outString b!"\" "

/-- The body of the argument loop (`src/message.c` 756–761). -/
def Writer.outArg (w : Writer) (a : Str) : Writer :=
  ((w.outString b!"\"").outEscaped a).outString b!"\" "

/-- The names written for the message types (`src/message.c` 728–751). -/
def MsgType.name : MsgType → Str
  | .hello => b!"hello"
  | .initialize => b!"initialize"
  | .frame => b!"frame"
  | .state => b!"state"
  | .quit => b!"quit"

/-- `write_message` (`src/message.c` 720–778) for the valid message types. (Types below
`TRAX_HELLO` fail an assertion and types above `TRAX_STATE` write nothing; no caller
passes such a type.) Both `arguments` and `properties` may be NULL, which behaves like
an empty list / empty map. -/
def Writer.writeMessage (w : Writer) (t : MsgType) (args : List Str) (props : Properties) : Writer :=
  let w := w.outString traxPrefix
  let w := w.outString t.name
  let w := w.outString b!" "
  let w := args.foldl Writer.outArg w
  let w := props.enumerate.foldl Writer.outProperty w
  w.outString b!"\n"

end Trax
