import Verif.Model.Bytes

/-!
# Model of the format and channel sets of `src/trax.c`
-/

namespace Trax

/-- One call of `strtok` on the text that is left: skip delimiters, then take everything up to the
next one. `none`: no token left (NULL). The delimiter behind the token is dropped. -/
def strtokStep (isDelim : UInt8 → Bool) (s : Str) : Option (Str × Str) :=
  let s := s.dropWhile isDelim
  if s = [] then none
  else some (s.takeWhile (!isDelim ·), (s.dropWhile (!isDelim ·)).drop 1)

/-- The loop over the tokens: the calls after the first one use ";" only. `fuel` bounds the number
of tokens; the length of the text is enough. -/
def decodeTokens (value : Str → Option UInt32) : Nat → Option (Str × Str) → UInt32 → Option UInt32
  | _, none, acc => some acc
  | 0, some _, _ => none
  | fuel + 1, some (token, rest), acc =>
    match value token with
    | none => none
    | some v => decodeTokens value fuel (strtokStep (· == ch%';') rest) (acc ||| v)

/-- `image_formats_decode`, `region_formats_decode`, `channels_decode` (`src/trax.c` 374–396,
420–441, 477–499): the set, or `none` for -1. The first call of `strtok` uses " ;". -/
def decodeSet (value : Str → Option UInt32) (s : Str) : Option UInt32 :=
  decodeTokens value (s.length + 1) (strtokStep (fun c => c == ch%' ' || c == ch%';') s) 0

/-- Image format names (`src/trax.c` 381–388). -/
def imageFormatValue (s : Str) : Option UInt32 :=
  if s = b!"path" then some 1 else if s = b!"url" then some 2
  else if s = b!"memory" then some 4 else if s = b!"buffer" then some 8 else none

/-- Region format names (`src/trax.c` 428–433). -/
def regionFormatValue (s : Str) : Option UInt32 :=
  if s = b!"rectangle" then some 2 else if s = b!"polygon" then some 4 else if s = b!"mask" then some 8 else none

/-- Channel names (`src/trax.c` 485–490). -/
def channelValue (s : Str) : Option UInt32 :=
  if s = b!"color" then some 1 else if s = b!"depth" then some 2 else if s = b!"ir" then some 4 else none

def imageFormatsDecode := decodeSet imageFormatValue
def regionFormatsDecode := decodeSet regionFormatValue
def channelsDecode := decodeSet channelValue

/-- `TRAX_SUPPORTS` (`include/trax.h`). -/
def supports (formats mask : UInt32) : Bool := formats &&& mask != 0

/-- `image_formats_encode` (`src/trax.c` 399–418). -/
def imageFormatsEncode (f : UInt32) : Str :=
  (if supports f 1 then b!"path;" else []) ++ (if supports f 2 then b!"url;" else []) ++
  (if supports f 4 then b!"memory;" else []) ++ (if supports f 8 then b!"buffer;" else [])

/-- `region_formats_encode` (`src/trax.c` 444–460). -/
def regionFormatsEncode (f : UInt32) : Str :=
  (if supports f 2 then b!"rectangle;" else []) ++ (if supports f 4 then b!"polygon;" else []) ++
  (if supports f 8 then b!"mask;" else [])

/-- `channels_encode` (`src/trax.c` 502–518). -/
def channelsEncode (f : UInt32) : Str :=
  (if supports f 1 then b!"color;" else []) ++ (if supports f 2 then b!"depth;" else []) ++
  (if supports f 4 then b!"ir;" else [])

/-- `BUFFER_LENGTH` (`src/trax.c` 32): the buffers the encoders write to (`tmp`, `src/trax.c` 667). -/
def formatBufferLength : Nat := 64

end Trax
