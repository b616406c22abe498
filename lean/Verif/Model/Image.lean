import Verif.Model.Base64
import Verif.Model.Decimal
import Verif.Model.Outcome

/-!
# Model of the images of `src/trax.c`

A `trax_image` with its buffer. `TRAX_IMAGE_MEMORY` formats: 0 illegal, 1 GRAY8, 2 GRAY16, 3 RGB.
`TRAX_IMAGE_BUFFER` formats: 0 illegal, 1 PNG, 2 JPEG.
-/

namespace Trax

/-- `struct trax_image` (`include/trax.h`); the `width` of a buffer image is the length of its
data, and the unused fields of path and URL images are left out. -/
inductive Image where
  | path (p : Str)
  | url (u : Str)
  | memory (width height format : Int) (data : List UInt8)
  | buffer (format : Int) (data : List UInt8)
  deriving DecidableEq, Repr

namespace Image

/-- `trax_image_get_type` (`src/trax.c` 1617–1623): `TRAX_IMAGE_PATH` … `TRAX_IMAGE_BUFFER`. -/
def type : Image → Nat
  | path _ => 1
  | url _ => 2
  | memory .. => 4
  | buffer .. => 8

/-- Bytes per sample (`src/trax.c` 264–266, 333–335, 1577–1579, 1640–1642). -/
def depth (format : Int) : Int := if format = 3 then 1 else if format = 1 then 1 else if format = 2 then 2 else 0

/-- Samples per pixel (`src/trax.c` 267, 336, 1580, 1644). -/
def channels (format : Int) : Int := if format = 3 then 3 else 1

/-- `width * height * depth * channels` in `int` arithmetic (`src/trax.c` 268, 337, 1588). -/
def memorySize (width height format : Int) : Outcome Int :=
  ((mul32 width height).bind (mul32 · (depth format))).bind (mul32 · (channels format))

/-- `trax_image_create_path` (`src/trax.c` 1543–1554). -/
def createPath (p : Str) : Image := .path (cstr p)

/-- `trax_image_create_url` (`src/trax.c` 1556–1568). -/
def createUrl (u : Str) : Image := .url (cstr u)

/-- `trax_image_create_memory` (`src/trax.c` 1570–1592). The content of fresh memory is `fresh`. -/
def createMemory (fresh : Nat → UInt8) (width height format : Int) : Outcome Image :=
  if format = 1 ∨ format = 2 ∨ format = 3 then
    (memorySize width height format).map fun n => .memory width height format ((List.range n.toNat).map fresh)
  else .abort

/-- `verify_image_format` (`src/trax.c` 132–157), for buffers of at least four bytes. -/
def verifyFormat (data : List UInt8) : Int :=
  if data.take 4 = [255, 216, 255, 224] then 2
  else if data.take 4 = [137, 80, 78, 71] then 1
  else 0

/-- `trax_image_create_buffer` (`src/trax.c` 1595–1615); `length` is the length of `data`. -/
def createBuffer (data : List UInt8) : Outcome Image :=
  if 4 < data.length ∧ verifyFormat data ≠ 0 then .ok (.buffer (verifyFormat data) data) else .abort

/-- The format name of a memory image (`src/trax.c` 261–263). -/
def memoryFormatName (format : Int) : Option Str :=
  if format = 3 then some b!"rgb" else if format = 1 then some b!"gray8"
  else if format = 2 then some b!"gray16" else none

/-- The format name of a buffer image (`src/trax.c` 282–283). -/
def bufferFormatName (format : Int) : Option Str :=
  if format = 2 then some b!"image/jpeg" else if format = 1 then some b!"image/png" else none

/-- `image_encode` (`src/trax.c` 244–298). `assert(format)` for unknown formats. Reading
`width * height * depth * channels` bytes of a shorter buffer is undefined. -/
def encode : Image → Outcome Str
  | path p => .ok (b!"file://" ++ p)
  | url u => .ok u
  | memory w h f data =>
    (memorySize w h f).bind fun n =>
      match memoryFormatName f with
      | none => .abort
      | some name =>
        if 0 ≤ n ∧ n.toNat ≤ data.length then
          .ok (b!"image:" ++ fmtInt w ++ b!";" ++ fmtInt h ++ b!";" ++ name ++ b!";" ++
            Base64.encode (data.take n.toNat))
        else .ub
  | buffer f data =>
    match bufferFormatName f with
    | none => .abort
    | some name => .ok (b!"data:" ++ name ++ b!";" ++ Base64.encode data)

/-- A character of a URI scheme (`src/trax.c` 118). -/
def schemeChar (c : UInt8) : Bool :=
  (97 ≤ c.toNat && c.toNat ≤ 122) || c = ch%'+' || c = ch%'.' || c = ch%'-'

/-- `parse_uri` (`src/trax.c` 114–130): the scheme and what follows the colon; the colon must be
among the first 16 characters. -/
def parseUri (s : Str) : Option (Str × Str) :=
  let scheme := s.takeWhile schemeChar
  if scheme.length < 16 ∧ s[scheme.length]? = some ch%':' then some (scheme, s.drop (scheme.length + 1)) else none

/-- `strntok` (`src/trax.c` 202–218): the text before and after the first `query`, which must be
among the first `limit` characters. -/
def strntok (s : Str) (query : UInt8) (limit : Nat) : Option (Str × Str) :=
  let token := s.takeWhile (· != query)
  if token.length < limit ∧ s[token.length]? = some query then some (token, s.drop (token.length + 1)) else none

/-- `decode_memory_format` (`src/trax.c` 172–185). -/
def decodeMemoryFormat (s : Str) : Int :=
  if eqNoCase s b!"rgb" then 3 else if eqNoCase s b!"gray8" then 1 else if eqNoCase s b!"gray16" then 2 else 0

/-- `decode_buffer_format` (`src/trax.c` 159–169). -/
def decodeBufferFormat (s : Str) : Int :=
  if eqNoCase s b!"image/jpeg" then 2 else if eqNoCase s b!"image/png" then 1 else 0

/-- Result of `image_decode`: the image or NULL (`none`), and the number of bytes that were written
behind the end of the image's buffer. The outcome is the one of a run in which these stray
writes do no harm. -/
structure Decoded where
  image : Option Image
  overrun : Nat
  deriving DecidableEq, Repr

/-- Storing `written` into a fresh buffer of `size` bytes: its content afterwards, and the number of
bytes behind its end. -/
def store (fresh : Nat → UInt8) (size : Nat) (written : List UInt8) : List UInt8 × Nat :=
  (written.take size ++ ((List.range size).drop written.length).map fresh, written.length - size)

/-- `image_decode`, scheme "image" (`src/trax.c` 313–350). -/
def decodeMemory (fresh : Nat → UInt8) (resource : Str) : Outcome Decoded :=
  let (w, rest) := strtol resource
  let width := wrap32 w
  if rest.head? ≠ some ch%';' then .ok ⟨none, 0⟩
  else
    let (h, rest) := strtol rest.tail
    let height := wrap32 h
    if rest.head? ≠ some ch%';' then .ok ⟨none, 0⟩
    else
      match strntok rest.tail ch%';' 32 with
      | none => .ok ⟨none, 0⟩
      | some (token, body) =>
        let format := decodeMemoryFormat token
        match Base64.decodeLen (some 0) body with
        | none => .ub
        | some n =>
          (memorySize width height format).bind fun allocated =>
            if width < 1 ∨ height < 1 ∨ n - 1 ≠ allocated then .ok ⟨none, 0⟩
            else
              let (data, over) := store fresh allocated.toNat (Base64.decodeWritten body)
              if Base64.decodeReturn body = allocated then .ok ⟨some (.memory width height format data), over⟩
              else .abort

/-- `image_decode`, scheme "data" (`src/trax.c` 351–366). -/
def decodeData (fresh : Nat → UInt8) (resource : Str) : Outcome Decoded :=
  match strntok resource ch%';' 32 with
  | none => .ok ⟨none, 0⟩
  | some (token, body) =>
    match Base64.decodeLen (some 0) body with
    | none => .ub
    | some n =>
      let (data, over) := store fresh n.toNat (Base64.decodeWritten body)
      .ok ⟨some (.buffer (decodeBufferFormat token) data), over⟩

/-- `image_decode` (`src/trax.c` 300–372). The URL branch (367–370) puts the colon back one byte too
late, so that the text still ends at the NUL behind the scheme. -/
def decode (fresh : Nat → UInt8) (text : Str) : Outcome Decoded :=
  match parseUri text with
  | none => .ok ⟨some (createPath text), 0⟩
  | some (scheme, resource) =>
    if scheme = b!"file" then
      .ok ⟨some (createPath (if b!"//".isPrefixOf resource then resource.drop 2 else resource)), 0⟩
    else if scheme = b!"image" then decodeMemory fresh resource
    else if scheme = b!"data" then decodeData fresh resource
    else .ok ⟨some (createUrl scheme), 0⟩

/-- The offset into the pixel buffer returned by `trax_image_write_memory_row` and
`trax_image_get_memory_row` (`src/trax.c` 1656–1680). -/
def rowOffset (img : Image) (row : Int) : Outcome Int :=
  match img with
  | memory _ h f _ => if 0 ≤ row ∧ row < h then .ok (depth f * channels f * row) else .abort
  | _ => .abort

end Image
end Trax
